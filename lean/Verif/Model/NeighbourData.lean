import Verif.Model.DataTree

/-! Generated by `tools/gen_neighbours.py`. -/

namespace WG

set_option maxRecDepth 100000

/-- The rows of `/repo/input_data/static_input/neigbouringcells_outflow_latlon.csv` without the first column: 32 rows to a leaf,
each as 48 digits: `cell1_x`, `cell1_y`, ..., `cell8_x`, `cell8_y` (3 each). -/
def neighbourData : DTree :=
 (.node 2048 (.node 1024 (.node 512 (.node 256 (.node 128 (.node 64 (.node 32 (.node 16 (.node 8 (.node 4 (.node 2 (.node 1 (.leaf 13290000000000000000000000000000000000000013290013291000000000000000000000000000000013290013291013292000000000000000000000000000000013291013292013293000000000000000000000000000000013292013293013294000000000000000000000000000000013293013294013295000000000000000000000000000000013294013295013296000000000000000000000000000000013295013296013297000000000000000000000000000000013296013297013298000000000000000000000000000000013297013298013299000000000000000000000000000000013298013299013300000000000000000000000000000000013299013300013301000000000000000000000000000000013300013301013302000000000000000000000000000000013301013302000000000000000000000000000000000000013302000000000000000000000000000000000000000000000000014214014215000000000000000000000000000000014214014215000000000000000000000000000000000000000000014217014218000000000000000000000000000000014217014218014221000000000000000000000000000000014218014221014222000000000000000000000000000000000000000000000000000000000000000000000000000000000000000000000000000000000000000000000000000000000000000000000000000000000000000000000000000000000000000000000000000000000000000000000000000000000000000000000000000000000000000000000000000000000000000000000000000000000000000000000000000000000000000000000000000000000000000000000000000000000000000000000000)
 (.leaf 14282000000000000000000000000000000000000014282014283000000000000000000000000000000014282014283014286000000000000000000000000000000014283014286014287000000000000000000000000000000014286014287014288000000000000000000000000000000014287014288014289013290000000000000000000000000014288014289014290013291000000000000000000000000014289014290014291000000000000000000000000000000015302015303000000000000000000000000000000000000015303000000000000000000000000000000000000000000000000000000000000000000000000000000000000000000000000000000000000000000000000000000000000000000000000000000000000000000000000000000000000000000000000000000000000000000000000000000000000000000000000000000000000000000000000000000000000000000000000000000000000000000000000000000000000000000000000000000000000000000000000000000000000000000000000000000000000000000000000000000000000000000000000000000000000000000000000000000000000000000000000000000000000000000000000000000000000000000000000000000015199000000000000000000000000000000000000015199015200000000000000000000000000000000015199015200015201000000000000000000000000000000015200015201015202))
 (.node 1 (.leaf 15201015202015203000000000000000000000000000000015202015203015204000000000000000000000000000000015203015204015207000000000000000000000000000000015204015207014207000000000000000000000000000000014207015207015208000000000000000000000000000000015207015208015209000000000000000000000000000000015208015209015210000000000000000000000000000000015209015210015213000000000000000000000000000000015210015213015214000000000000000000000000000000015213015214014214000000000000000000000000014214014214016217016217014221000000000000000000014217015219016219014221014222000000000000000000014218016219014221014221000000000000000000000000000000014223015223016226000000000000000000000000000000015223016226016226000000000000000000000000000000016226016226015228000000000000000000000000000000016226015228015229000000000000000000000000000000015228015229016230000000000000000000000000000000015229016230015231000000000000000000000000000000016230015231015232000000000000000000000000000000015231015232015233000000000000000000000000000000015232015233015234000000000000000000000000000000015233015234000000000000000000000000000000000000000000000000000000000000000000000000000000000000000000000000000000000000000000000000000000000000000000000000000000000000000000000000000000000000000000000000000000000000000000000000000000000000000000000000000000000000000000000000000000000000000000000000000000000000000000000000000000000000000000000000000000000000000000000000000000000000000000000000000000000000000000000000000000000000000000000000000000)
 (.leaf 14275000000000000000000000000000000014279015279015280000000000000000000000000000000015279015280015281014286000000000000000000014282015282015283015284014287000000000000000000014283015283015284015285015295013295013294013293015293015293015294015295015296013296013295013294015294015294015295015296015297013297013296013295015295015295015296015297014298013298013297013296015296015296015297015298014299013299013298013297015297015297015298015299015301013302013301013300015299015300000000000000015302000000013302013301015300000000000000000000015303000000000000013302015301000000000000000000000000000000000000000000015302000000000000000000000000000000000000000000015303000000000000000000000000000000000000000000000000000000000000000000000000000000000000000000000000000000000000000000000000000000000000000000000000000000000000000000000000000000000000000000000000000000000000000000000000000000000000000000000000000000000000000000000000000000000000000000000000000000000000000000000000000000000000000000000000000000000000000000000000000000000000000000000000000000000000000000000000000000000000000000000000000000000000000000000000000000000000000000000000000000000000000000000000000000000000000000000000000000000000000000)))
 (.node 2 (.node 1 (.leaf 16182016183000000000000000000000000000000016182016183016184000000000000000000000000000000016184000000016186000000000000000000000000000000000000016186016187015191000000000000000000000000016187015188016189000000000000000000000000015188015188016189016190000000000000000000000000000000016190016193015194000000000000000000000000000000016193015194015194000000000000000000000000000000016196015197000000015207000000000000000000015203016205016206017206014207000000000000000000015204016206017206016206015213000000000000000000015209017210016212016213015214000000000000000000015210016212016213016214016217014215014214000000014214016215016216016217016217000000014215014214014214016216016217016218015219014217000000014215016217016217016218016219016219014218014217000000016217016218016219016220014221014222014221014218016219016220016221016222015223014223014222014221014221016221016222016223014223000000014223014222014221016222016223000000016226000000000000000000014223000000000000000000016226000000000000000000015223000000000000000000015228000000000000000000016226000000000000000000015229000000000000000000016226000000000000000000015232000000000000000000016230000000000000000000000000000000000000000000000000000000000000000000000000000000000000000000000000000000000000000000000000000000000000000000000000000000000000000000000000000000000000000000000000000000000000000000000000000000000000000000000000000000000000000000)
 (.leaf 16245000000000000000000000000000000000000016245016248000000000000000000000000000000016245016248016249000000000000000000000000000000016248016249015249000000000000000000000000000000015249016249016252000000000000000000000000000000016249016252000000000000000000000000000000000000016252000000000000000000000000000000000000000000000000000000016253000000000000000000000000000000000000016253000000000000000000000000000000000000016253000000000000000000000000000000000000000000000000000000000000000000000000000000000000000000000000000000000000000000000000000000000000000000000000000000000000000000000000000000000000000000000000000000000000000000000000000000000000000000000000000000016260000000000000000000000000000000000000016260016261000000000000000000000000000000016260016261016262000000000000000000000000000000016261016262016263000000000000000000000000000000016262016263016266000000000000000000000000000000016263016266016267000000000000000000000000000000016266016267016268000000000000000000000000000000016267016268000000000000000000000000000000000000016268000000000000000000000000000000000000000000000000000000000000000000000000000000000000000000000000000000000000000000000000000000000000000000000000000000000000000000000000000000000000000000000000000000000000000000000000000000000000000000000000000000015274015289014289014288014287015285015286016288016289000000000000000000000000000000015304016306000000))
 (.node 1 (.leaf 16306000000000000000000000000000000000000000000000000000000000000000000000000000000000000000000000000000000000000000000000000000000000000000000000000000000000000000000000000000000000000000000000000000000000000000000000000000000000000000000000000000000015312000000000000000000000000000000015313000000000000000000000000000000000000000000000000000000000000000000000000000000000000000000000000000000000000000000000000000000000000000000000000000000000000000000000000000000000000000000000000000000000000000000000000000000000000000000000000000000000000000000000000000000000000000000000000000000000000000000000000000000000000000000000000000000000000000000000000000000000000000000000000000000000000000000000000000000000000000000000000000000000000000000000000000000000000000000000000000000000000000000000000000000000000000000000000000000000000000000000000000000000000000000000000000000000000000000000000000000000000000000000000000000017181000000000000000000000000016183017183000000000000015188015188000000000000016186000000000000000000016193000000000000015191016189017189017190017191015194000000000000000000016190017190017191017192015195000000000000000000015194017192017193017194015196000000000000000000015194017193017194017195015197000000000000000000015196017195000000017199000000000000000000000000016196000000017199017200000000015199000000000000015197017199017200017201016204015202015201015200016200000000000000000000016205015203015202015201016201000000000000000000017210015209015208015207016207017207018209018209)
 (.leaf 16212015210015209015208016208018209018209017212016213015213015210015209017210018209017212017213000000016226015223014223000000000000000000000000000000016226016226015223000000000000000000000000000000015229015228016226000000000000000000000000000000016230015229015228000000000000000000000000000000015231016230015229000000000000000000000000000000015233015232015231000000000000000000000000000000015234015233015232000000000000000000000000000000000000015234015233000000000000000000000000000000000000000000015234000000000000000000000000000000000000000000000000000000000000000000000000000000000000000000000000000000000000000000000000000000000000000000000000000000000000000000016239000000000000000000000000000000016241016242017243000000000000000000000000000000016242017243000000016248000000000000000000000000000000000000017246016249000000000000000000016245000000017246017247016252000000000000000000015249017248017249017252000000000000000000000000016249017249017252016252000000000000000000000000000000017252017253016255016266000000000000000000016262016263016263016265015285015284015283015282015283016283016285016285000000015299015298015297000000016296017298016298000000000000015300015299000000016298017298017299015301000000000000015300000000017298017299017300015302000000000000000000000000017299017300017303015303000000000000000000015301017300017303017304015304000000000000000000015302017303017304017305016306000000000000000000015303017304017305017306000000000000000000000000015304017305017306017307000000000000000000000000000000017307017308016308))))
 (.node 4 (.node 2 (.node 1 (.leaf 16308018309017311000000000000000000000000000000018309017311017312015312000000000000000000000000017311017312017313015313000000000000000000000000017312017313000000000000000000000000000000015312017313000000000000000000000000000000000000015313000000000000000000000000000000000000000000000000000000000000000000000000000000000000000000000000000000000000000000000000000000000000000000000000000000000000000000000000000000000000000000000000000000000000017320000000000000000000000000000000000000017320017321000000000000000000000000000000017320017321017322000000000000000000000000000000017321017322017323000000000000000000000000000000017322017323016323000000000000000000000000000000016324016324000000000000000000000000000000000000016324000000000000000000000000000000000000000000000000000000000000000000000000000000000000000000000000000000000000000000000000000000000000000000000000000000000000000000000000000000000000000000000000000000000000000000000000000000000000000000000000000000000000000000000000000000000000000000000000000000000000000000000000000000000000000000000000000000000000000000000000000000000000000000000000000000000000000000000000000000000000000000000000000000000000000000000000000000000000000000000000000000000000000000000000000000000000000000000000000000000000000000000000000000000000000000000000000000000000000000000000000000000000000000000000000000000000000000000000000000000000000000000000000000000000000000000000000000000000000000000000000000000000000000000000000000000000000000000000000000000000)
 (.leaf 18171000000000000000000000000000000000000018171018172000000000000000000000000000000018171018172018173000000000000000000000000000000018172018173018176000000000000000000000000000000018173018176018177000000000000000000000000000000018176018177000000000000000000000000000000000000000000000000000000000000000000000000000000000000000000000000000000000000000000000000000000000000000000000000000000000000016184016183016182017182000000000000000000000000000000016184016183017183000000000000000000000000016186000000016184000000000000000000000000000000016187016186000000000000000000000000000000000000015188016187016186000000000000000000018188000000016196015196015195017194000000000000000000017199015197016196015196017195000000000000000000017200000000015197016196000000000000000000000000000000016204016201016200000000000000000000000000000000016205016204016201000000000000000000000000000000016206016205016204000000000000000000000000018209016208016207016206017206018206018207018208018209017210016208016207017207018207018208018209000000016223016222016221000000018221018222000000000000000000016223016222000000018222000000000000000000000000000000016223000000000000000000000000000000000000000000000000000000000000000000000000000000000000000000000000000000000000000000000000000000000000000000000000000000000000000000000000000000000000000000000000000000000000000000000000000000000000000000000000000000000000000000000000))
 (.node 1 (.leaf 18230000000000000000000000000000000000000018230018233000000000000000000000000000000018230018233018234000000000000000000000000000000018234017233018236000000000000000000000000000000017233018236018237000000000000000000000000000000018236018237017237016239000000000000000000000000017237017237018238016240000000000000000000000000017237018238018239016240000000000000000000016239018238018239018240016241000000000000000000016240018239018240019241016242000000000000000000016240018240019241019242000000000000000000000000016242019242019243019244000000016245000000000000017243019243019244019245016252000000016252016249017249017249017250017252016265016266016263016262016263017263017263017265016285015285015285015283016283017283017285017285016290015290016290016289016288017288017290017290017298000000000000000000016295017295017295017297017303015302015301000000017299017299017300017303017304015303015302015301017300017300017303018304017311000000000000000000016308019308019309018311017312000000000000000000018309019309018311000000000000000000000000015313000000000000000000000000000000000000000000000000000000000000000000000000000000000000000000000000000000000000000000000000000000000000000000000000000000000000000000018319017320000000000000000000000000000000018319000000017321000000000000000000000000018319000000000000016324000000000000000000016323000000000000000000000000000000000000000000016324000000000000000000000000000000000000000000016324000000000000000000)
 (.leaf 0)))
 (.node 2 (.node 1 (.leaf 18176000000000000000000018172019172019173019176018177000000000000000000018173019173019176019177000000000000000000000000000000019178000000019180000000017181000000000000000000019181000000000000000000017182017181000000000000000000000000000000000000017183017182017181000000000000000000000000000000000000017183017182000000000000000000000000000000000000000000017183000000000000000000000000000000000000000000000000000000000000000000000000000000000000000000000000000000000000000000000000018192017190017189000000018188000000000000000000000000017191017190017189018189000000000000000000000000017193017192017191000000000000000000000000000000017194017193017192000000000000000000000000000000017195017194017193000000000000000000000000000000000000017195017194000000000000000000000000000000017199000000017195000000000000000000019197000000017200017199000000000000000000019197019198000000000000017201017200000000019198018199019200000000000000000000017201000000018199019200019201000000000000000000000000000000019200019201019204000000000000000000000000000000019201019204018204000000017205000000000000000000018204018204019205017211017212018209018209018208020209020210019212017212017213017212018209018209020210019212019213019214017214017213017212017211019212019213019214017214017215017214017213017212019213019214019215)
 (.leaf 18216017216017215017214019214019214019215019216018217017217017216017215017214019215019216000000018221000000017220017219019219000000000000000000018222000000000000017220017219000000000000000000000000000000000000000000000000000000000000000000000000000000000000000000000000000000000000000000000000000000000000000000000000000000000000000000000000000000000000000000000000000000000000000000000000000000000000000000000000000000000000000000000000000000000000000000000000000000000000000000000000000000000000000000000000000000000000019229018233000000000000000000000000019229019230019231018234000000000000000000018230019230019231019232018237000000000000000000017233019235018234019235019241016241016240016240018239018240018240019241019242016242016241016240018240018240019241019242019243017243016242016241019241019241019242019243019244000000017243016242019242019242019243019244019245000000000000017243019243019243019244019245019246017246000000000000019244019244019245019246017248017247017246000000019245019245019246019247017249017248017247017246019246019246019247019248017249017249017248017247017248019247019248019249017250017252017249017248017249019248019249019250017252016252017252017249017249019249019250019251017253017252016252017252017250019250019251018253017265016265016263016263017263018263018263018265017285016285016285016283017283018283018285018285017290016290016290016288017288018288018290018290017297017298016296016295017295018295020297020297017297016298017298016296017295020297020297020298017298017298016298017298017297020297020298019300))
 (.node 1 (.leaf 17299017299017298016298017297020298019300019301017300017300017299017298017298019300019301019302017303017303017300017299017299019301019302018302018305017305017304017303017303018302018304018305000000017312017311018309019309019310018311019312000000000000017313017312000000019312019313019314000000000000000000017313000000019313019314019315000000000000000000000000000000019314019315019316000000000000000000000000000000019315019316019317000000000000000000000000000000019316019317019318018319000000000000000000000000019317019318019319000000017320000000000000000000019318019319000000000000017322017321017320000000000000000000000000000000017323017322017321000000000000000000000000000000016323017323017322000000000000000000000000000000016324016323017323000000000000000000000000000000016324016324016323000000000000000000000000000000000000016324016324000000000000000000000000000000000000000000016324000000000000000000000000000000000000000000000000000000000000000000000000000000000000000000000000000000000000000000000000000000000000000000000000000000000000000000000000000000000000000000000000000000000000000000000000000000000000000000000000000000000000000000000000000000000000000000000000000000000000000000000000000000000000000000000000000000000000000000000000000000000000000000000000000000000000000000000000000000000000000000000000000000000000000000000000000000000000000000000000000000000000000000000000000000000000000000000000000000000000000000000000000000000000000000000000000000000000000000000000000000000000000000000000000000000000000000000000)
 (.leaf 0)))))
 (.node 8 (.node 4 (.node 2 (.node 1 (.leaf 20170018171018171000000000000000000000000020170020171019176018176018173018172019172020172020173021175019177018177018176018173019173020173021175021175019181000000000000000000000000021177019180019181000000000000000000000000000000020182020183019184000000000000000000000000000000020183019184020185000000000000000000000000000000000000000000000000000000000000000000000000000000000000000000000000000000018188000000000000000000000000000000000000000000018189018188000000000000000000000000020189000000018192018189018188000000000000020189020190)
 (.leaf 18192018189000000020189020190020191000000000000000000018192000000020190020191020194000000000000000000000000000000020191020194020195000000000000000000000000000000020194020195000000000000000000000000000000000000020195000000000000000000000000000000000000000000000000000000000000018199000000000000000000019197000000020198020199019204000000000000000000019200020200020201020202018204000000000000000000019201020201020202021205018207018206000000000000018204021205020205020208018208018207018206000000019205020205020208020209020209018208018207018206018207020208020209020210020210018209018208018207018208020209020210000000019212017211018209018208020209020210000000000000019213017212017211018209020210000000000000000000000000019219018218018217000000000000000000000000000000017219019219018218000000000000000000000000000000018222018221017219000000000000000000000000000000000000018222018221000000000000000000000000000000000000000000000000000000000000000000000000000000000000000000000000000000000000000000000000000000000000000000000000000000000000000000000000000000000000000000000000000000000000000000000000019235017233018234018233019231020231020232019234018240018239018238017237018238019238019238019240018253017253017252017250019250019250019251019253018265017265017263017263018263019263019263019265018285017285017285017283018283019283019285019285018290017290017288017287018287019287020289019290018290017290017290017288018288020289019290019290018292017292017291017290018290019290019292019292018294017294017293017292018292019292021294021295))
 (.node 1 (.leaf 18295017295017294017293018293021294021295021296020297017295017295017294018294021295021296021297020297017297017295017295018295021296021297021297020298017297017297017295020297021297021297021298019300017298017297017297020297021297021298021299019301017299017298017297020298021298021299021300018305018305018304017303018302021302021303021304019306018306018305018304018304021303021304021305019307018307018306018305018305021304021305019306019313000000000000018311018311020311020312020313000000000000000000000000000000000000000000000000000000000000000000000000000000000000000000000000000000000000000000000000000000000000000000000000000000000000000000000000000000000000000000000000000000000000000000000000000000000000000000000000000000000000000000000000000000000000000000000000000000000000000000000000000000000000000000000000000000000000000000000000000000000000000000000000000000000000000000000000000000000000000000000000000000000000000000000000000000000000000000000000000000000000000000000000000000000000000000000000000000000000000000000000000000000000000000000000000000000000000000000000000000000000000000000000000000000000000000000000000000000000000000000000000000000000000000000000000000000000000000000000000000000000000000000000000000000000000000000000000000000000000000000000000000000000000000000000000000000000000000000000000000000000000000000000000000000000000000000000000000000000000000000000000000000000000000000000000000000000000000000000000000000000000000000000000000000000000000000000000000000000000000000000000000000000000000000000)
 (.leaf 0)))
 (.node 2 (.node 1 (.leaf 21175019176019173019172020172000000000000000000021175019177019176019173020173000000000000000000021177000000019178019177021175000000021176021177019180019180000000019178020176021176021177021178019181019181019180000000021177021177021178021179020182000000019181019180019180021178021179021180020183000000000000019181019181021179021180021183000000000000000000000000000000021184000000000000000000000000000000000000000000000000000000000000)
 (.leaf 20194000000000000000000020190000000000000021192020195000000000000000000020191000000021192021193000000019197000000000000000000020196022196021197021205018204019204019201020201021203000000000000021205018204018204019204020202000000000000000000020208018207019205018204021205000000000000000000020209018208018207019205020205000000000000000000000000019213019212020210000000000000000000000000000000019214019213019212000000000000000000000000000000019215019214019213000000000000000000000000000000019216019215019214000000000000000000000000000000000000019216019215000000000000000000000000000000000000000000019216000000000000000000000000000000000000000000000000000000000000000000000000000000000000000000000000000000000000000000000000019240018240018238018238019238020238020238020240019244019243019242019241019241020241020242020244019246019245019244019243019244020244020244020246019249019248019247019246019246020246020247020249019253018253019251019250019250020250020251020253019265018265018263018263019263020263020263020265019285018285018285018283019283020283021285020285020289018288018287018286019286020286021288020289019290018290018288018287019287021288020289020289019292018291018290018290019290020289020291020291021294018293018292018291019292020291021293021294021295018294018293018292019292021293021294021295021296018295018294018293021294021294021295021296021297020297018295018294021295021295021296021297021297020297020297018295021296021296021297021298021300019301019300020298021298021299021300021301))
 (.node 1 (.leaf 21301019302019301019300021299021300021301021302021302018302019302019301021300021301021302021303021303018304018302019302021301021302021303021304021304018305018304018302021302021303021304021305021305019306018305018304021303021304021305021306019306019307019306018305021304021305021306021307019307019308019307019306021305021306021307021308019308019309019308019307019306021307021308021309020310019310019309019308019307021308021309020310020311018311019310019309019308021309020310020310000000000000000000000000000000000000000000000000000000000000000000000000000000000000000000000000000000000000000000000000000000000000000000000000000000000000000000000000000000000000000000000000000000000000000000000000000000000000000000000000000000000000000000000000000000000000000000000000000000000000000000000000000000000000000000000000000000000000000000000000000000000000000000000000000000000000000000000000000000000000000000000000000000000000000000000000000000000000000000020387000000000000000000000000000000020387020387021388000000000000000000000000000000020387021388021391000000000000000000000000000000021388021391000000000000000000000000000000000000021391000000021391000000000000000000000000000000000000021391021392000000000000000000000000000000021391021392021395000000000000000000000000000000021392021395020396000000000000000000000000000000021395020396021397000000000000000000000000000000021397000000000000000000000000000000000000000000000000000000000000000000000000000000000000000000000000000000000000000000000000000000000000000000000000000000000000)
 (.leaf 0))))
 (.node 4 (.node 2 (.node 1 (.leaf 22152000000000000000000000000000000000000022152022153000000000000000000000000000000022152022153022156000000000000000000000000000000000000000000000000000000000000000000000000000000000000000000000000000000020170000000000000000000000000000000000000000000020171020170000000000000000000000000000000000000020172020171020170000000000000000000000000000000020173020172020171000000000000000000022173000000021175020173020172000000000000022173022174021183020183020182019181021179022181022182023183020184019184020183020182021180022182023183000000000000000000000000020185022183000000000000000000000000000000000000000000021184000000000000000000000000000000000000000000000000000000000000000000000000000000000000000000000000000000000000000000000000020189000000000000000000000000000000000000000000020190020189000000000000000000000000000000000000020191020190020189000000000000000000000000021196000000020195020194021192000000000000000000020196000000000000020195021193000000000000000000021201020199020198000000021197022197022200022201)
 (.leaf 21202020200020199020198021198022200022201022202000000021205021205020202000000000000000000023205000000020208020205021205000000023205022207022208000000020209020208020205000000022207022208000000000000020210020209020208000000022208000000000000000000000000020210020209000000000000000000000000000000000000000000020210000000000000000000000000000000000000000000000000000000000000000000000000000000000000000000000000000000000000000000000000000000000000000000000000000000000000000000000000000000000000000000000000000000021224021225021227020232020231020230000000021229021229021230021232020240019240019238019238020238021238021238021240020244019244019242019241020241021241021242021244020246019246019244019244020244021244021244021246020249019249019247019246020246021246021247021249020253019253019251019250020250021250021251021253020265019265019263019263020263021263021263021265021285019285019283019282020282021282022284021284021288019287019286019285020285021284022287021288020289020289019287019286020286022287021288021288020291019290019290020289020289021288021290021290021293019292019292019290020291021290021292021292021315020315020314020313020312021312021314022315000000000000000000020319000000000000000000000000000000000000000000000000000000000000000000000000000000000000000000000000000000000000000000000000000000000000000000000000000000000000000000000000000000000000000000000000000000000000000000000000000000000000000000000000000000000000000000000000000000000000000000000000000000000000000000000000000000000000000000000000000000000000000000000000))
 (.node 1 (.leaf 20387000000000000000000000000000000000000022388020387000000000000000000000000000000022388022389021391000000000000000000020387022389000000000000000000000000000000000000021388000000000000022390021395000000000000000000021391000000023392022393020396000000000000000000021392023392022393022396000000000000000000000000020396022396023397000000000000000000000000000000000000000000000000000000000000000000000000000000000000000000000000000000000000000000000000000000000000000000000000000000000000000000000000000000000000000000000000000000000000000000000000000000000000000000000000000000000000000000000000000000000000000000000000000000000000000000000000000000000000000000000000000000000000000000000000000000000000000000000000000000000000000000000000000000000000000000000000000000000000000000000000000000000000000000000000000000000000000000000000000000000000000000000000000000000000000000000000000000000000000000000000000000000000000000000000000000000000000000000000000000000000000000000000000000000000000000000000000000000000000000000000000000000000000000000000000000000000000000000000000000000000000000000000000000000000000000000000000000000000000000000000000000000000000000000000000000000000000000000000000000000000000000000000000000000000000000000000000000000000000000000000000000000000000000000000000000000000000000000000000000000000000000000000000000000000000000000000000000000000000000000000000000000000000000000000000000000000000000000000000000)
 (.leaf 22561023563000000000000000000000000000000022561023563021565000000000000000000000000000000023563021565021565000000000000000000000000000000021566000000022569000000000000000000000000000000000000000000000000000000000000000000000000000000000000000000000000000000000000000000000000000000000000000000000000000000000000000000000000000000000000000000000000000000000000000000000000000000000000000000000000000000000000000000000000000000000000000000000000000000000000000000000000000000000000000000000000022156000000000000000000022152000000000000000000022157000000000000000000022153000000000000000000000000000000000000000000000000000000000000023160000000000000000000000000000000000000023160000000000000000000000000000000000000023160000000000000000000000000000000000000000000000000000000000000000000000000000000000000000000000000000000000000000000000000000000000000000000000000000000000000000000000000000000000000000000000000000000000000000000000000000000000000000000000000000000000000000000000000000000000000000000000000000000000000000000000000000000000000000000000000000000000000)))
 (.node 2 (.node 1 (.leaf 23179021177021176000000022175000000000000000000023180021178021177021176022176000000000000000000022181021179021178021177023179000000000000000000022182021180021179021178023180000000000000000000000000021184022183020184000000000000000000000000000000000000021184022183000000000000000000000000000000000000000000021184000000000000000000000000000000000000000000000000000000000000000000000000000000000000000000000000000000000000000000000000000000000000000000000000000000000000000000000000000000000000000000000000000000000000000000023190000000000000000000000000000000000000023190023191000000021192000000000000000000023190023191023192000000021193021192000000000000023191023192022194022200021198021197022196022196023196023197023200022201021201021198021197022197023197023200023201023205000000000000000000000000023204023205023206022207000000000000000000000000023205023206000000022208000000000000000000023205023206000000000000000000000000000000000000000000000000000000000000000000000000000000000000000000000000000000000000000000000000000000000000000000000000000000024216000000000000000000000000000000000000024216024217000000000000000000000000000000024216024217022218000000000000000000000000000000022218023218024220000000000000000000000000000000023218024220024220000000000000000000000000000000024220024220022222021223000000000000000000000000022222024223024224021224000000000000000000021222024223024224024224021225000000000000000000021223024224024224024226021227000000000000000000021224024224024226022227021228000000000000000000021227022227024228024229)
 (.leaf 21229021229000000000000021227024228024229024229021230020230021229000000021228024229024229024231021232020232020230021229021229024229024231024231021233020233020232020230021230024231024231024232021234020234020233020232021232024231024232022234021240020240020238020238021238022238022238022240021244020244020242020241021241022241022242022244021246020246020244020244021244022244022244022246021249020249020247020246021246022246022247022249021253020253020251020250021250022250022251022253021265020265020263020263021263022263022263022265022284020283020282020281021281022281023283022283021288021288020286020285021284022285022287022287021290020289020289021288021288022287022289022289021292020291020291020289021290022289022291022291021294021294021293020291021292022291022293023294022296021296021295021294021294023294023295022295022300021300021299021298021298022297023299022300021301021301021300021299021298023299022300022300022303021303021302021301021301022300023302022302021312020312020311020310021310022310024312024313021314021314020312020311021311024312024313024313022315021315021314020312021312024313024313024314022316021316021315021314021314024313024314024315000000000000000000021318000000000000000000000000000000000000000000000000000000000000000000000000000000000000000000000000000000000000000000000000000000000000000000000000000000000000000000000000000000000000000000000000000000000000000000000000000000000000000000000000000000000000000000000000000000000000000000000000000000000000000000000000000000000000000000000000000000000000000000000000))
 (.node 1 (.leaf 22388020387000000000000000000000000000000000000022389020387020387000000000000000000000000000000000000021391000000021391000000000000000000023391023392021392021391000000022390000000023391023392022396020396021395021392023392023392023393023394023397021397020396021395022393023393023394000000000000000000000000021397023397000000000000000000000000000000000000000000000000000000000000000000000000000000000000000000000000000000000000000000000000000000000000000000000000000000000000000000000000000000000000000000000000000000000000000000000000000000000000000000000000000000000000000000000000000000000000000000000000000000000000000000000000000000000000000000000000000000000000000000000000000000000000000000000000000000000000000000000000000000000000000000000000000000000000000000000000000000000000000000000000000000000000000000000000000000000000000000000000000000000000000000000000000000000000000000000000000000000000000000000000000000000000000000000000000000000000000000000000000000000000000000000000000000000000000000000000000000000000000000000000000000000000000000000000000000000000000000000000000000000000023559000000000000000000000000000000000000023559000000023563000000000000000000000000000000000000000000021565000000000000000000022561000000000000000000021565000000000000000000023563000000000000000000021566000000000000000000021565000000000000000000000000000000000000000000021565000000000000000000)
 (.leaf 22569000000000000000000021566000000000000000000000000000000000000000000000000000000000000000000000000000000000000000000000000000000000000000000000000000000000000000000000000000000000000000000000000000000000000000000000000000000000000024134000000000000000000000000000000000000024134024137000000000000000000000000000000024134024137024138000000000000000000000000000000024137024138000000000000000000000000000000000000024138000000000000000000000000000000000000000000000000000000000000000000000000000000000000000000000000000000000000000000000000000000000000000000000000000000000000000000000000000000000000000000000000000000000000000000022152000000000000000000000000000000000000000000022153022152000000000000000000000000000000000000022156022153022152000000000000000000000000000000022157022156022153000000000000000000000000000000000000022157022156000000000000000000000000000000000000000000022157000000000000000000000000023160000000000000000000000000000000000000000000000000000000000000000000000000000000000000000000000000000000000000000000000000000000000000000000000000000000000000000000000000000000000000000000000000000000000000000000000000000000000000000000000000000000000000000000000000000000000000000000000000000000000000000000000000000000000000000000000000000000000000000000000000000000000000000000000000000000000000000000000000000000000000000000000000000000000000000000000000000000000000000000000000022174022173000000000000000000000000000000000000022175022174022173000000000000000000000000000000022176022175022174000000000000000000000000))))))
 (.node 16 (.node 8 (.node 4 (.node 2 (.node 1 (.leaf 23179022176022175000000000000000000000000000000023180023179022176000000000000000000000000000000023183022182022181000000000000000000000000000000000000023183022182000000000000000000000000000000000000000000000000000000000000000000000000000000000000000000000000000000000000000000000000000000000000000000000000000000000000000000000000000000000000000000000000000000000000000000000000000000000000000000000000000000000000000000000000022194000000000000000000023191000000000000000000024194000000000000000000023192000000000000024194022195000000000000000000022194000000024194000000023200022200022197022196023196025197025198024200023201022201022200022197023197025198024200024201023205000000000000022203024202024203000000000000000000000000022208022207000000000000000000000000000000000000000000022208000000000000000000000000000000000000000000000000000000000000000000000000000000000000000000000000000000000000000000000000024216000000000000000000000000000000000000000000024217000000000000000000000000000000000000000000022218000000000000000000024216000000000000000000024220000000000000000000022218000000000000000000024220000000000000000000023218000000000000000000022222000000000000000000024220000000000000000000024223021222000000000000024220000000000000000000024224021223021222000000022222000000000000000000024224021224021223021222024223000000000000000000024226021225021224021223024224000000000000000000022227021227021225021224024224000000000000000000024228021227021227021225024226000000000000024227024229021228021227021227022227000000024227024228)
 (.leaf 24229021229021228021227024228024227024228024229024231021230021229021228024229024228024229024230024231021232021230021229024229024229024230024231024232021233021232021230024231024230024231024232022234021234021233021232024231024231024232024233022235021235021234021233024232024232024233024234022236021236021235021234022234024233024234024235022237021237021236021235022235024234024235024236022238021238021237021236022236024235024236024237022240021240021238021238022238024237023238025240022241021241021240021238022238023238025240023241022242021242021241021241022241023241025242025243022244021244021242021241022241025242025243023244022246021246021244021244022244023244023244023246022249021249021247021246022246023246023247023249022253021253021251021250022250023250023251023253022265021265021263021263022263023263023263023265022283022284021282021281022281023281023281023283022287021288022287021284022285023285023285023287022293021292021292021290022291023290023290023292023299021298021298021296022297023296023296023298022302022303021301021301022300023300023300023302022305022305022304022303022302023302023304023304022307021308022307022306022305023305023305025308022308021308021308022307022306023305025308025308022309022310021308021308022307025308025308025309022310021310022310021308022308025308025309025310024312021311021310022310022309025309025310024312024313021312021311021310022310025310024312024313024313021314021312021311024312024312024313024314024314022315021314021312024313024313024314024315024315022316022315021314024313024314024315024316))
 (.node 1 (.leaf 24316022317022316022315024314024315024316000000000000000000022317022316024315024316000000000000000000000000000000022317024316000000000000000000000000000000000000000000000000000000000000000000000000000000000000000000000000000000000000000000000000000000000000000000000000000000000000000000000000000000000000000000000000000000000000000000000000000000000000000000000000000000000000000000000000000000000000000000000000000000000000000000000000000000000000000000000000000000000000000000000000000000000000000000000000000000000000000000000000022388000000000000000000000000000000000000000000022389022388000000000000000000000000000000000000000000022389022388000000000000000000000000000000000000000000022389000000000000000000000000000000022390000000000000000000000000000000000000000000023397022396022393023393024393000000000000000000000000023397022396023394000000000000000000000000000000000000000000000000000000000000000000000000000000000000000000000000000000000000000000000000000000000000000000000000000000000000000000000000000000000000000000000000000000000000000000000000000000000000000000000000000000000000000000000000000000000000000000000000000000000000000000000000000000000000000000000000000000000000000000000000000000000000000000000000000000000000000000000000000000000000000000000000000000000000000000000000022561000000000000023559000000000000000000000000023563022561000000000000000000000000000000000000021565021565023563000000000000000000000000000000021566021565021565000000000000000000000000000000000000021566021565000000000000000000000000)
 (.leaf 22569000000021566000000000000000000000000000000000000022569000000000000000000000000000000000000000000000000022569000000000000000000000000000000000000000000000000000000000000000000000000000000000000000000000000000000000000000000000000000000000000000000000000000000000000000000000000000000000000000000000000000000000000000000000000000000000000000000000000000000000000000000000000000000000000000000000000000000000000000000000000000000000000000000000000000000000000000000000000000000000000000000000000000000000000000000000000000000000000000000000000000000000000000000000000024137000000000000000000000000000000000000000000024138000000000000000000024134000000000000000000000000000000000000000000000000000000000000000000000000000000000000000000000000000000000000000000000000000000000000000000000000000000000000000000000000000000000000000000000000000000000000000000000000000000000000000000000000000000000000000000000000000000000000000000000000000000000000000000000000000000000000000000000000000000000000000000000000023160000000000000000000000000000000000000000000000000023160000000000000000000000000000000000000000000000000023160000000000000000000000000000000000000000000000000000000000000000000000000000000000000000000000000000000000000000000000000000000000000000000000000000000000000000000000000000000000000000000000000000000000000000000000000000000000000000000000000000000000000000000000000000000000000000000000000000000000000000000000000000000000000000000000000000000000000000000000000000000000000000000000000000000000000000000000000)))
 (.node 2 (.node 1 (.leaf 25185000000000000000000000000000000000000025185025186000000000000000000000000000000025185025186024188000000000000000000000000000000024188000000000000000000023190000000000000000000000000000000000000000000023191023190000000000000000000000000025191000000023192023191023190000000000000025191025192000000022194023192023191000000025191025192025195000000022195024194022194000000025195025196000000025197023196022195024194024194025196000000000000025198023197023196022195000000000000000000000000024200023200023197023196025197000000000000000000024201023201023200023197025198000000000000000000000000023206023205023204000000000000000000000000000000000000023206023205000000000000000000000000000000000000000000023206000000000000000000000000000000000000000000000000000000000000000000000000000000024216000000000000000000000000000000000000000000023218022218024217000000000000000000000000000000024220023218022218000000000000000000000000000000022222024220024220000000000000000000000000000000024223022222024220000000000000000000000000000000024226024224024224000000000000000000000000023238022238022238022237024236024236026238026239025240022240022238022238024237026238026239026240)
 (.leaf 23241022241022240022238023238026239026240026241025242022241022241022240025240026240026241026242025243022242022241022241023241026241026242026243023244022244022242022241025242026242026243026244023244022244022244022242025243026243026244026244023246022246022244022244023244026244026244026246023246022246022246022244023244026244026246026247023247022247022246022246023246026246026247026248023249022249022247022246023246026247026248026249023250022250022249022247023247026248026249026250023250022250022250022249023249026249026250026250023251022251022250022250023250026250026250026251023253022253022251022250023250026250026251026253023254022254022253022251023251026251026253026254023255022255022254022253023253026253026254026254023256022256022255022254023254026254026254026255023257022257022256022255023255026254026255026256023258022258022257022256023256026255026256026257023259022259022258022257023257026256026257026258023260022260022259022258023258026257026258024260023265022265022263022263023263024263024263024265023284022284022283023283023281024281024282024284023288022289022287022287023285024285024286024288023290022291022289022289023288024288024288024290023292022293022291022291023290024290024290024292023294023295023294022293023292024292025294024294023296022297022295023295023294024294024294024296023302022302023302022300023300024300024300024302023305022305022305023304023304024303024303024305025308022307022306022305023305024305025307025308025308022308022307022306023305025307025308025309025309022309022308022307025308025308025309025310))
 (.node 1 (.leaf 25310022310022309022308025308025309025310025311024312024312022310022309025309025310025311025312024313024313024312022310025310025311025312025313000000000000000000024316000000025317025318025319000000000000000000000000000000025318025319000000000000000000000000000000000000025319000000000000000000000000000000000000000000000000000000000000000000000000000000000000000000000000000000000000000000000000000000000000000000000000000000000000000000000000000000000000000000000000000000000000000000000000000000000000000000000000000000000000000000000000000000000000000000000000000000000000000000000000000000000000000000000000000000000000000000000000000000000000000000000000000000000000000000023394023393023392024392000000000000000000000000000000023394023393024393000000000000000000000000000000000000023394000000000000000000000000000000000000000000000000000000000000000000000000000000000000000000000000000000000000000000000000000000000000000000000000000000000000000000000000000000000000000000000000000000000000000000000000000000000000000000000000000000000000000000000000000000000000000000000000000000000000000000000000000000000000000000000000000000000000000000000000000000000000000000000000000000000000000000000000000000000000000000000000000000000000000000000000000000000000000000000000000000000000000000000000000000023559000000000000000000000000000000000000000000000000023559000000000000000000000000000000000000000000000000000000000000025564025565024567000000000000000000000000000000024567000000000000000000000000000000000000000000000000000000000000)
 (.leaf 26119026120000000000000000000000000000000026119026120000000000000000000000000000000000000026120000000000000000000000000000000000000000000000000000000000000000000000000000000000000000000000000000000000000000000000000000000000000000000000000000000000000000000000000000000000000000000000000000000000000000000000000000000000000000000000000000000000000000000000000000000000000000000000000000000000000000000024134000000000000000000000000000000000000000000024137024134000000000000000000000000000000000000024138024137024134000000000000000000000000000000000000024138024137000000000000000000000000000000000000000000024138000000000000000000000000000000000000000000000000000000000000000000000000000000000000000000000000000000000000000000000000000000000000000000000000000000000000000000000000000000000000000000000000000000000000000000000000000000000000000000000000000000000000000000000000000000000000000000000000000000000000000000000000000000000000000000000000000000000000000000000000000000000000000000000000000000000000000000000000000000000000000000000000000000000000000000000000000000000000000000000000000000000000000000000000000000000000000000000000000000000000000000000000000000000000000000000000000000000000000000000000000000000000000000000000000000000000000000000000000000000000000000000000000000000000000000000000000000000000000000000000000000000000000000000000024188000000000000000000025185027187027187026189000000000000000000000000025186027187026189027190000000000000000000000000024188026189027190026191))))
 (.node 4 (.node 2 (.node 1 (.leaf 27190026191027191025195000000000000000000025191026193027193027195025196024194000000000000025192027193027195027195000000024201024200025198000000027197026200026201000000024202024201024200000000026200026201000000000000024203024202024201000000026201000000000000000000000000024203024202000000000000000000000000000000000000000000024203000000000000000000000000000000000000000000000000000000000000000000000000000000000000000000000000000000000000000000000000000000000000000000000000000000000000000000000000000000000000000000000000000000000000000000000000000000000000000000000000000000000000000000000000000000000000000000000000000000000000000000000000000000000000000000000000000000000000000000000000000000000000000000000000000000000000000000000000000000000000000000000000000000000000000000026223000000000000000000000000000000000000026223026224000000000000000000000000000000026223026224026225000000000000000000000000000000026224026225027227024230024229024228024227025227027228025228025230024231024231024230024229024230025230025230027232024232024232024231024230024230025230027232026232024233024233024232024231024231027232026232027234024234024234024233024232024232026232027234027235026236024235024234024233024233027234027235026237024236024236024235024234024234027235026237027237026238024237024236024235026236026237027237027238026239023238024237024236024236027237027238027239026240025240023238024237026238027238027239027240026242025242023241025240026240027240027241027242026244023244023244025243026243027243027244027244)
 (.leaf 26246023246023244023244026244027244027244027246026247023246023246023244026244027244027246027247026248023247023246023246026246027246027247027248026249023249023247023246026247027247027248026248026250023250023249023247026248027248026248027250026250023250023250023249026249026248027250026250026251023251023250023250026250027250026250027252026253023253023251023250026250026250027252027253026254023254023253023251026251027252027253027253026254023255023254023253026253027253027253027254026255023256023255023254026254027253027254027255026256023257023256023255026254027254027255027256026257023258023257023256026255027255027256027257026258023259023258023257026256027256027257027258024260023260023259023258026257027257027258026259024261023261023260023259026258027258026259027261024262023262023261023260024260026259027261027262024263023263023262023261024261027261027262025263024284023284023283023281024281025281025282025284024288023288023287023285024285025285025286025288024290023290023289023288024288025288025288025290024292023292023290023290024290025290025290025292024302023302023300023300024300025300025300025302024305023305023304023304024303025303025303025305025316024316024315024314024314026314026315000000025317000000024316024315024314026315000000000000000000000000000000000000000000000000000000000000000000000000000000000000000000000000000000000000000000000000000000000000000000000000000000000000000000000000000000000000000000000000000000000000000000000000000000000000000000000000000000000000000000000000000000000000000000000000000000000000))
 (.node 1 (.leaf 24391000000000000000000000000000000000000000000024392024391000000000000000000000000000000000000024393024392024391000000000000000000000000000000000000024393024392000000000000000000000000000000000000000000024393000000000000000000000000000000000000000000000000000000000000000000000000000000000000000000000000000000000000000000000000000000000000000000000000000000000000000000000000000000000000000000000000000000000000000000000000000000000000000000000000000000000000000000000000000000000000000000000000000000000000000000000000000000000000000000000000000000000000000000000000000000000000000000000000000000000000000000000000000000000000000000000000000000000000000000000000000000000000000000000000000000000000000000000000000000000000000000000000000000000000000000000000000000000000000000000000000000000000000000000000000000000000000000000000000000000000000000000000000000000000000000000000000000000000000000026562000000000000000000000000000000000000026562026563024567000000000000000000025564026564026565025568000000000000000000000000025565026565025568025568000000000000000000000000000000025569025571026572000000000000000000000000000000000000000000000000000000000000000000000000000000000000000000027118000000000000000000000000026119000000000000000000000000000000000000000000026120000000000000000000000000000000000000000000000000000000000000000000000000000000000000000000000000000000000000000000000000000000000000000000000000000000000000000000000000000000000000000000000000000000000000000000)
 (.leaf 27140000000000000000000000000000000000000027140027143000000000000000000000000000000027140027143000000000000000000000000000000000000000000000000000000000000000000000000000000000000000000000000000000000000000000000000000000000000000000000000000000000000000000000000000000000000000000000000000000000000000000000000000000000000000000000000000000000000000000000000000000000000000000000000027159000000000000000000000000000000000000027159027160000000000000000000000000000000027160027163000000000000000000000000000000000000027163000000000000000000000000000000000000000000000000000000000000000000000000000000000000000000000000000000000000000000000000000000000000000000000000000000000000000000000000000000000000000000000000000000000000000000000000000000000000000000000000000000000000000000000000000000000000000000000000000000000000000000000000000000000000000000000000000000000000000000000000000000000000000000000000000000000000000000000000000000000000000000000000000000027174000000000000000000000000000000000000027174027177000000000000000000000000000000027174027177027178000000000000000000000000000000027177027178000000000000000000000000000000000000027178000000000000000000000000000000000000000000000000000000000000000000000000000000000000000000000000000000000000000000000000000000000000000000000000000000000000)))
 (.node 2 (.node 1 (.leaf 27182000000000000000000000000000000000000000000025183000000000000000000000000000000000000000000025184000000000000000000027182000000000000000000027187025185000000000000025183000000000000000000027187025186025185000000025184000000000000000000026189024188025186025185027187000000000000000000027190000000024188025186027187000000000000000000027191000000000000000000027190000000000000000000027193025192025191000000027191000000000000000000027195025196025195025192027193000000000000000000000000000000025196025195027195000000000000000000027197000000000000025196027195000000000000000000027197000000000000000000000000000000000000000000026200000000000000000000027197000000000000000000026201000000000000000000027197000000000000000000000000000000000000000000000000000000000000000000000000000000000000000000000000000000000000000000000000000000000000000000000000000000000000000000000000000000000000000000000000000000000000000000000000000000000000000000000000000000000000000000000000000000000000000000000000000000000000000000000000000000000000000000000000000000000000000000000000000000000000000000000000000000000000000000000000000000000000000000000000000000000000000000027227000000000000000000026224000000000000000000027228025227000000000000026225000000000000000000025228024228025227000000027227000000000000000000025230024230024228025227027228000000000000000000025230024230024230024228025228000000000000000000027232024231024230024230025230000000000000000000027234024233024232024231027232000000000000000000027235024234024233024232026232000000000000000000)
 (.leaf 26237026236024234024233027234000000000000000000027246026246026244026244027244028244028244028246027253026253026251026250026250027250028252028252027261024261024260026258027258028259028260027260027262024262024261024260026259028260027260027261025263024263024262024261027261027260027261028262025264024263024263024262027262027261028262027263025265024265024263024263025263028262027263028265025266024266024265024263025264027263028265028265025267024267024266024265025265028265028265026267025284024284024282024281025281026281026282026284025290024290024288024288025288026287026288026290025293025294024292024290025290026290026291026293025295024294024294025294025293026293026295026295025302024302024300024300025300026300026300026302025305024305024303024303025303026303027305027306025306025307024305024303025303027305027306027307026308025308025307024305025305027306027307027308026309025309025308025307025306027307027308027309000000025318025317025316000000027316000000000000000000025319025318025317000000000000000000000000000000000000025319025318000000000000000000000000000000000000000000025319000000000000000000000000000000000000000000000000000000000000000000000000000000000000000000000000000000000000000000000000000000000000000000000000000000000000000000000000000000000000000000000000000000000000000000000000000000000000000000000000000000000000000000000000000000000000000000000000000000000000000000000000000000000000000000000000000000000000000000000000000000000000000000000000000000000000000000000000000000000000000000000000000000000000000000000000))
 (.node 1 (.leaf 25568024567025565025564026564027564027565027566025568000000024567025565026565027565027566027567025569000000000000024567025568027566027567027568025571000000000000000000025568027567027568027569026572000000000000000000025569027568027569027570026573000000000000000000025571027569027570027571000000000000000000000000000000027575026574026576000000000000000000000000000000026576027578026579000000000000000000000000000000027578026579027580000000000000000000000000000000027580026581026581000000000000000000000000000000026581027583000000000000000000000000000000000000027583000000027585000000000000000000000000000000000000000000000000000000000000000000000000000000000000000000000000000000000000000000000000000000000000000000000000000000000000000000000000000000000000000000000000000000000000000000000000000000000000000000000000000000000000000000000000000000000000000000000000000000026119000000000000000000000000000000000000000000026120026119000000027118000000000000000000)
 (.leaf 26120026119000000000000000000000000000000000000000000026120000000000000000000000000000000000000000000000000000000000000000000000000000000000000000000000000000000000000000000000000000000000000000000000000000000000000000000000000000000000000000000000000000000000000000000000000000000000000000000000000000000000000000000000000000000000000000000000000000000000000000000028129000000000000000000000000000000000000028129028130000000000000000000000000000000028129028130028133000000000000000000000000000000028130028133028134000000000000000000000000000000028133028134028135000000000000000000000000000000028134028135000000000000000000000000000000000000000000000000000000027143000000000000000000000000000000000000028141000000000000000000000000027140000000028141028142000000000000000000000000000000000000000000000000000000000000000000000000000000000000000000000000000000000000000000000000000000000000000000000000000000000000000000000000000000000000000000000000000000000000000000000000000000000000000000000000000000000000000000000000000000000000000000000000000000000000000000000000000000000000000000000000000000000000000000000000000000000000000000000000027163000000000000000000027159000000028160028161000000000000000000000000027160028160028161028164000000000000000000000000000000028164000000000000000000000000000000000000000000000000000000000000000000000000000000000000000000000000000000000000000000000000000000000000000000000000000000000000000000000000000000000000000000000000000000000000000000000000000000000000000000000000000000000000)))))
 (.node 8 (.node 4 (.node 2 (.node 1 (.leaf 27177000000000000000000000000000000000000028175027178000000000000000000027174000000028175028176000000000000000000000000000000028177028180000000000000000000000000000000000000028180000000000000000000000000000000000000000000000000000000000000000000025183027182000000000000000000000000000000000000025184025183027182000000000000000000000000000000027187025184025183000000000000000000000000000000027187027187025184000000000000000000000000000000027190026189027187000000000000000000000000000000026191027190026189000000000000000000000000000000027193026193027191000000000000000000000000000000027195027195027193000000000000000000000000000000027197000000027195000000000000000000000000000000026200027197027197000000000000000000000000000000026201026200027197000000000000000000000000000000000000026201026200000000000000000000000000000000000000000000026201000000000000000000000000000000000000000000000000000000000000000000000000000000000000000000000000000000000000000000000000000000000000000000000000000000000000000000000000000000000000000000000000000000000000000000000000000000026223000000000000000000000000000000000000000000026224026223000000000000000000000000000000000000026225026224026223000000000000000000000000000000027227026225026224000000000000000000000000000000025230025228027228000000000000000000000000000000025230025230025228000000000000000000000000000000027232025230025230000000000000000000000000000000027234026232027232000000000000000000000000)
 (.leaf 27237026237027235000000000000000000000000028246027246027244027244028244000000029244029246028250027250026248027248028248029248028248029249028252027252026250027250028250029249029250029251028260026259027258027257028257029257029259028259028265025265025264025263028262028262029264029264028265025266025265025264027263029264029264029266026267025267025266025265028265029264029266028266026268025268025267025266028265029266028266029267026269025269025268025267026267028266029267027269026271025271025270025269026269027269028269027271026284025284025282025281026281027281027282027284026290025290025288025288026287027287027288027290026293025293025292025290026290027290027291027293026295025295025295025293026293027293027295027295026302025302025300025300026300027300027300027303026303025303025302025300026300027300027303027303027306025305025303025303026303027303027303027305026313026314026313026312026311027311028313027313027316000000026315026314026313027313028315027316000000000000000000026315026314028315027316028317000000000000000000000000000000028317029317028319000000000000000000000000000000029317028319028320000000000000000000000000000000028319028320000000000000000000000000000000000000028320000000000000000000000000000000000000000000000000000000000000000000000000000000000000000000000000000000000000000000000000000000000000000000000000000000000000000000000000000000000000000000000000000000027481000000000000000000000000000000027481027481029483000000000000000000000000000000027481029483000000000000000000000000000000000000029483000000000000))
 (.node 1 (.leaf 28547000000000000000000000000000000000000028547028550000000000000000000000000000000028547028550028551000000000000000000000000000000028550028551000000000000000000000000000000000000028551000000000000000000000000000000000000000000000000000000000000000000000000000000000000000000000000000000000000000000000000000000000000000000000000000000028556000000000000000000000000000000000000028556028557000000000000000000000000000000028556028557028558000000000000000000000000000000028557028558028559000000000000000000000000000000028558028559027559000000000000000000000000000000027559029559028560026561000000000000000000000000029559028560028561027575000000000000026573027571027572029572028573026574000000000000000000026573029572028573029574027578000000000000000000026574029574028575028576026579000000000000000000026576028575028576028577)
 (.leaf 26581000000000000000000026579028577028580028581027583000000000000000000026581028581028582028583000000000000000000000000026581028582028583028584000000000000000000000000000000028584028585000000000000000000000000000000000000000000000000000000000000000000000000000000000000000000000000028635000000000000000000000000000000028635027636029638000000000000000000000000000000027636029638000000000000000000000000000000000000000000028641028644000000000000000000000000000000028641028644000000000000000000000000000000000000000000000000000000000000000000000000000000000000000000000000000000000000000000000000000000000000000000000000000000000000027118000000000000000000000000000000000000000000000000027118000000000000000000000000000000000000000000000000027118000000000000000000000000000000000000000000000000000000000000000000000000000000000000000000000000000000000000000000000000000000000000000000000000000000000000000000000000000000000000000000000000000000000000000000000000000000000000000000000000000000000000000000000000000000000000000000000000000000000000000000000000000000000000000000000000000000000000000000000000000000000000000000000000000000000000000000000000028133000000000000000000028129000000000000000000028134000000000000000000028130000000000000000000000000000000000000000000000000000000000000000000000000027140000000000000000000000000030140030141000000000000000000027143028141000000030143000000000000000000000000000000028142030143000000030145000000000000000000000000000000000000030145029147028148000000000000000000000000030145029147000000)))
 (.node 2 (.node 1 (.leaf 29147000000000000000000000000000000000000000000000000000000000000000000000000000000000000000000000000000000000000000000000000000000000000000000000000000000000000000000000000000000000000000000000000000000000000000000000000000000000000000000000000000000000000000000000000000000000000000000000000000000000000000000000000000000000000000000000000000000000000000000027159000000000000000000000000000000000000028164000000027163027160028160000000000000000000000000000000000000027163028161000000000000000000000000000000000000000000000000000000000000029167000000000000000000000000000000029167029168029171000000000000000000000000000000029168029171029172028180000000000000027178028176028176029177029178000000000000000000000000028177029177029178029181000000000000000000000000000000029181028182028182000000000000000000000000000000028182029182029185000000000000000000000000000000029185029186029187000000000000000000000000000000029187029188029189000000000000000000000000000000029189028190030193000000000000000000000000000000028190030193030193000000000000000000000000000000030193030193030194000000000000000000000000000000030193030194028195000000000000000000000000000000028195030196028197000000000000000000000000000000028197029199000000000000000000000000000000000000029199000000000000000000000000000000000000000000000000000000000000000000000000000000000000000000000000000000000000000000000000000000000000000000000000000000000000000000000000000000000000000000000000000000000000000000000000000000000000000000000000000000000000)
 (.leaf 28244000000000000000000000000000000000000029246028246028244028244000000000000000000000000029249028250027248028248029248029247030248030249029251028252027250028250029249030249030250030251029259028259028257028256029256030256030257030259029261027261027260028260028259029259030260029261029264027263028262027261029261029261030263030263029264028265027263028262028262030263030263030265029267026268026267028265029266030266030266029267027269026269026268026267028266030266029267029268027272026272026271026270028269028270029270028272027284026284026282026281027281028281028282028284027290026290026288026287027287028287028288028290027293026293026291026290027290028290028291028293027295026295026295026293027293028293028295028295027303026302026300026300027300028300028300028302027303027305026303026302027303028302028302030304027305027306027305026303027303028302030304030304027307027307027306027305027303030304030304028307027308027308027307027306027305030304028307028307028313026312026311027311027310028310030311028312027316027316026314026313027313029314029315029316029317000000000000027316027316029316000000000000028320000000000000000000029317000000000000000000000000000000000000000000000000029475028476030478000000000000000000000000000000028476030478030480000000000000000000000000000000030478030480029481027481000000000000000000000000030480029481000000027481000000000000000000000000029481000000000000029483000000000000000000027481000000000000000000))
 (.node 1 (.leaf 27481000000000000000000000000000000000000000000029483000000000000000000000000000000000000000000000000000000000000000000000000000000000000000000000000000000000000000000000000000000000000000000000000000000000000000000000000000000000000000000000000000000000000000000000000000000000000000000000000000000000000000000000000000000000000000000000000000000000000000000000000000000000000000000000000000000000000000000000000000000000000000000000000000000000000000000000000000000000000000000000000029539028540029543000000000000000000000000000000028540029543028543000000000000000000000000000000028543028543028546000000000000000000000000000000028543028546028546028550000000000000000000000000029548029549029550028551000000000000000000028547029549029550029551000000000000000000000000000000029552029553029554000000000000000000000000000000029553029554029555028556000000000000000000000000029554029555029556028557000000000000000000000000029555029556029557028566027564027563027562028562029562028563029564027567027565027564027563028563028563029564029565029570027568027567027566028566030567030568029570027572027571027570027569028569029571029572030573029572026573027571027570028570029572030573029572029574026574027575026573029572029572030573029574028580027580026579027578028576029576029577030578028581026581027580026579028577029577030578030580000000000000000000000000000000000000000000000000000000000000000000000000000000000000000000000000000000000000000000000000000000000000000000000000000000000000000000000000000000000000000000000000)
 (.leaf 29634027636000000000000000000000000029634029635030638029638000000000000000000028635029635030638029639000000000000000000000000027636030638029639029640000000000000000000000000029638029639029640030640000000000000000000000000000000029640030640030641028644000000000000000000000000030641030642030643000000000000000000000000028641030642030643000000000000000000000000000000000000000000000000000000000000000000000000000000000000000000000000000000000000000000000000000000000000000000000000000000000000000000000000000000000000000000000000000000000000000000000000000000000000000000000000000000000000000000000000000000000000000000000000000000000000000000000000000000000000000000000000000000000000000000000000000000000000000000000000000000000000000000000000000000000000000000000000000000000000000000000000000000000000000000000000000000000000000000000000000000000000000000000000000000000000000000000000000000000000000000000000000000000000000000000000000000000000000000000000000000000000028129000000000000000000000000000000000000000000028130028129000000000000000000000000000000000000028133028130028129000000000000000000000000000000028134028133028130000000000000000000000000000000028135028134028133000000000000000000030133000000000000028135028134000000000000030133030136000000000000000000028135000000030133030136000000000000000000000000000000000000030136000000000000000000000000000000000000000000000000000000000000030140000000000000000000029137000000000000000000030141000000000000000000000000000000000000000000))))
 (.node 4 (.node 2 (.node 1 (.leaf 28141000000000000030140000000000000000000030143028142028141000000030141000000000000000000000000000000028142028141000000000000000000000000030145000000000000028142030143000000000000000000029147000000000000000000000000000000000000000000000000028148000000000000030145000000000000000000000000000000000000028148000000000000000000000000000000000000000000000000000000000000000000000000000000000000000000000000000000000000000000000000000000000000000000000000000000000000000000000000000000000000000000000000000000000000000000000000000000000000000000000000000000000000000000000000000000028160000000000000000000000000000000000000000000028161028160000000000000000000000000000000000000028164028161028160000000000000000000000000000000000000028164028161000000000000000000000000000000000000000000028164000000000000000000000000000000000000000000000000000000000000000000000000029171000000000000000000029167000000000000000000029172000000000000000000029168000000000000000000028176028176028175000000000000000000000000000000029181000000028180028177029177000000000000000000028182000000000000028180029178000000000000000000029185000000000000000000028182000000000000000000029186000000000000000000029182000000000000000000028190000000000000000000029188000000000000000000030193000000000000000000029189000000000000000000030193000000000000000000028190000000000000000000030194000000000000000000030193000000000000000000028195000000000000000000030193000000000000000000030196000000000000000000030194000000000000000000028197000000000000000000028195000000000000000000)
 (.leaf 29199000000000000000000030196000000000000000000000000000000000000000000028197000000000000000000000000000000000000000000000000000000000000000000000000000000000000000000000000000000000000000000000000029246029244000000000000000000000000000000030259029259029257029256030256031256031257031258030260028260028259029259030259031258030259030260030263028262029261028260030260030260031262031263030263029264028262029261029261031262031263031263030266029266029264029264030263031263031265031265028270028269027269029267029267030267030268030269028272027272027271028269028270030269030270029272028284027284027282027281028281029282029282029284028290027290027288027287028287029287029288029290028293027293027291027290028290029290029291029293028295027295027295027293028293029293029295029295028297027297027296027295028295029295029295029297028299027299027298027297028297029297030299031300028300027300027299027298028298030299031300031300028300027300027300027299028299031300031300031301028302027303027300027300028300031300031301031302028302027303027303027300028300031301031302031303030304027303027303027303028302031302031303031303030304027305027303027303028302031303031303031305028307027307027305027303030304031303031305031306028307027308027307027305030304031305031306031307028308028309027308027307028307031306031307031308028309027310028309027308028307031307031308031309028310027310027310028309028308031308031309030311030311027311027310027310028309031309030311031311028312028313027311027310028310030311031311030313029314027313028313027311030311031311030313031313))
 (.node 1 (.leaf 29315028315027313028313028312030313031313031314000000028320028319029317000000000000000000000000000000000000028320028319000000000000000000000000000000000000000000028320000000000000000000000000000000000000000000000000000000000000000000000000000000000000000000000000000000000000000000000000000000000000000000000000000000000000000000000000000000000000000000000000000000000000000000000000000000000000000000000000000000000000000000000000000000000000000000000000000000000000000000030472000000000000000000000000000000000000030472030473000000000000000000000000000000030472030473030476028476000000000000000000000000030476031477030478030478000000000000000000029475031477030478000000030480000000000000000000028476030478000000000000029481000000000000000000030478000000000000000000000000027481000000000000030480000000000000000000000000029483027481027481000000000000000000000000000000000000000000029483000000000000000000000000000000000000000000000000000000000000000000000000000000000000000000000000000000000000000000000000000000000000000000000000000000000000000000000000000000000000000000000000000000000000000000030535000000000000000000000000000000000000030535031536000000000000000000000000000000031536029537029539028540000000000000000000000000029539030539030540029543000000000000000000029539030539030540030541028543000000000000000000028540030540030541030542028546000000000000000000028543030542030543030546028546000000000000000000028543030543030546030547029548000000000000000000028546030546030547030548029549028547000000000000028546030547030548030549)
 (.leaf 28563028563028562028561029561030561030562030563030567028566027567028566029564030564030565030566030568028567028566027567029565030565030566030567029570029570028567028566030567030566030567030568029571028569029570028567030568030567030568030569030573028573029572027572030573030571030572030575030578028580028577028576029576031578030579031580030580028581028580028577029577030579031580030581029582028582028581028580030578031580030581000000030583028583028582028581030580030581000000000000029585028585028584028583030583000000000000000000000000000000000000000000000000000000000000000000000000000000000000000000000000000000000000000000000000000000000000000000000000000000000000000000000000000000000000000000000000000000000000000000030638027636028635000000029634000000000000000000029639029638027636028635029635000000000000000000030642028641000000000000030640000000000000000000030643028644028641000000030641000000000000000000000000000000028644028641030642000000000000000000000000000000000000028644030643000000000000000000000000000000000000000000000000000000000000000000000000000000000000000000000000000000000000000000000000000000000000000000000000000000000000000000000000000000000000000000000000000000000000000000000000000000000000000000000000000000000000000000000000000000000000000000000000000000000000000000000000000000000000000000000000000000000000000000000000000000000000000000000000000000000000000000000000000000000000000000000000000000000000000000000000000000000000000000000000000000000000000000000000000000000000000000000000000000000000000000)))
 (.node 2 (.node 1 (.leaf 30136000000000000000000000000000000000000000000000000000000000000000000030133000000000000000000000000029137000000000000000000000000000000000000000000000000029137000000000000000000000000000000000000030140000000029137000000000000000000000000000000030145000000030143000000000000000000000000000000000000029147030145000000000000000000000000000000000000000000000000000000000000000000000000000000000000000000000000000000000000000000000000000000000000000000000000000000000000000000000000000000000000000000000000000000000000000000000000000000029167000000000000000000000000000000000000000000029168029167000000000000000000000000000000000000029171029168029167000000000000000000000000000000029172029171029168000000000000000000000000000000000000029172029171000000000000000000000000000000000000000000029172000000000000000000000000000000029175000000000000000000000000000000000000000000028176029175000000000000000000000000000000000000029177028176029175000000000000000000000000000000029178029177028176000000000000000000000000000000029181029178029177000000000000000000000000000000028182029181029178000000000000000000000000)
 (.leaf 28182028182029181000000000000000000000000000000029182028182028182000000000000000000000000000000029185029182028182000000000000000000000000000000029186029185029182000000000000000000000000000000029187029186029185000000000000000000000000000000000000029187029186000000000000000000000000000000029187000000029187000000000000000000000000000000029188029187000000000000000000000000000000000000029189029188029187000000000000000000000000000000028190029189029188000000000000000000000000000000030193028190029189000000000000000000000000000000030193030193028190000000000000000000000000000000030196028195030194000000000000000000000000000000029199028197030196000000000000000000000000000000000000029199028197000000000000000000000000000000000000000000029199000000000000000000000000000000000000000000000000000000000000000000000000000000000000000000000000000000000000000000000000000000000000000000000000000000000000000000000000000000000000000000000000000000000000000000000000000000029247000000000000000000000000000000000000031258030259030257030256031256032256032257031258031262029261030260029259030259032260032261031261031263030263029261030260030260032261031261031262031265030265030263030263031263031262031263031264029272028272029270028270030269031269031270031271029273028273028272029270030270031270031271031272029274028274028273028272029272031271031272031273029275028275028274028273029273031272031273030275029284028284028282028281029282030282030282030284029290028290028288028287029287030287030288030290029293028293028291028290029290030290030291030293))
 (.node 1 (.leaf 29295028296028295028295029295030294030294030296031300028299028298028297029297030296030297031300031301028300028300028299031300031300032301032301031302028302028300028300031300032301032301032303031303028302028302028300031301032301032303032303031303030304028302028302031302032303032303031305031306028307030304030304031303031305031306031307031307028307028307030304031305031306031307031308031308028308028307028307031306031307031308032308031309028309028308028307031307031308032308031308030311028310028309028308031308032308031308032311031311030311028310028309031309031308032311032311031313029314028312030311031311032311032312031314030316029316029315029314031313031314031315000000000000000000029316029315031314031315000000000000000000000000000000000000000000000000000000000000000000000000000000000000000000000000000000000000000000000000000000000000000000000000000000000000000000000000000000000000000000000000000000000000000000000000000000000000000000000000000000000000000000000000000000000000000000000000000000000000000000000000000000000000000000000000000000000000000000000000000000000000000000000000000000000000000000000000000000000000000000000000000000031471030476000000000000000000030472031474032475031476031477029475000000000000030473032475031476000000000000030478028476029475031477000000000000000000000000029481030480030478000000000000000000000000000000000000000000029481000000000000000000000000000000000000000000000000000000000000000000000000000000000000000000000000000000000000000000000000000000000000000000000000000000000000000000000000)
 (.leaf 31534031536000000000000000000000000031534031535031536029537000000000000000000030535031535031536031537029539000000000000000000031536031536031537031538030546028546028543028543030542030542032543031544030547028546028546028543030543032543031544031545031555029555029554029553029553031553032554031555030556029556029555029554030552032554031555031556030557029557029556029555031555031555031556031557029560029560029559028558029560031560030561030561031575029574030573029572030572031572031573031576031578029576029575029574031575031576031577031578030579029577029576029575031577031577031578031579000000029584030583029582000000000000000000000000000000000000029585029584000000000000000000000000000000000000000000029585000000000000000000000000000000029635029634000000000000000000000000000000000000030638029635029634000000000000000000000000000000029639030638029635000000000000000000000000000000030640029640029639000000000000000000000000000000000000000000030643000000000000000000000000000000000000000000000000000000000000000000000000000000000000000000000000000000000000000000000000000000000000000000000000000000000000000000000000000000000000000000000000000000000000000000000000000000000000000000000000000000000000000000000000000000000000000000000000000000000000000000000000000000000000000000000000000000000000000000000000000000000000000000000000000000000000000000000000)))))))
 (.node 32 (.node 16 (.node 8 (.node 4 (.node 2 (.node 1 (.leaf 32112000000000000000000000000000000000000032112032113000000000000000000000000000000032112032113033115000000000000000000000000000000032113033115033115000000000000000000000000000000033115033115031117000000000000000000000000000000031117032119032120000000000000000000000000000000032119032120031120000000000000000000000000000000031120000000031122000000000000000000000000000000031122031122032125000000000000000000000000000000031122032125032126000000000000000000000000000000032125032126032127000000000000000000000000000000000000000000000000000000030133000000000000000000000000000000000000000000030136030133000000000000000000000000000000000000000000030136030133000000000000000000000000000000000000000000030136000000000000000000000000000000000000000000000000000000000000000000000000000000000000000000000000000000000000000000000000000000000000000000000000000000000000032169032170000000000000000000000000000000032169032170031172000000000000000000000000000000031172032172032173000000000000000000000000000000032172032173000000000000000000000000000000000000000000000000000000000000000000000000000000000000000000000000000000000000000000000000000000000000000000000000000000000000000000000000000000000000000000000000000000000000000000000000000000000000000000000000000000)
 (.leaf 32251030251031250031249031249032249032250032251032252030252030251031250031250032250032251032252032253030253030252030251032251032251032252032253032254030254030253030252032252032252032253032254032260030259031258031257032257032257033259033260032261030260030259031258031258033259033260032260030284029284029282029282030282031282031282031284030290029290029288029287030287031287031288031290030293029293029291029290030290031290031291031293030296029295029295029295030294031294031294033297030296029297029295029295030294031294033297032298030297030299029297029295030296033297032298033299031300031300030299029297030296032298033299032300032301031300031300030299030297033299032300032301031306031305031303031303032303032304032305033306032311031311030311031309031308000000000000000000031314031313030313031311032311000000000000032314000000000000000000030316000000032316000000000000000000000000000000000000000000000000000000000000000000000000000000000000000000000000000000000000000000000000000000000000000000000000000000000000000000000000000000000000000000000000000000000000000000000000000000000000000000000000000000000000000000000000000000000000000000000000000000000000000000000000000000000000000000000000000000000000))
 (.node 1 (.leaf 32469000000000000000000000000000000000000032469032470031474030472000000000000000000032470033473032474032475030473030472000000031471033473032474032475000000031477030476030473032475032475000000000000000000000000000000030478000000000000000000000000000000000000000000000000000000000000000000000000000000000000000000000000000000000000000000000000000000000000000000000000000000000000000000000000000000000000000000000000000000000000000000000000000000000000000000000000000000000000000000000000000000000000000000000000000000000000000000000000000000000000000000000000000000000000000000000000032539030539029539029537031537032539033539032541031542030540030539029539031538033539032541032542032543030541030540030539032539032541032542033541032543030543030542030541032543033541032542032543032548030549030548030547031545033546032546032547031552030552030551030550031548032548032549032552031553029553030552030551031549032549032552032553031556030556031555030552032554032554031555033555030561030561029560030561030561032561031562032563030563030563030562030561030561032563032564032565030565030565030564030563030563032565032566032567031572030570030569030568031568032570032571032572032572030571030570030569031569032571032572032573031576031575030575030572031572032574000000000000000000000000000000030581000000000000000000000000000000000000000000000000000000000000000000000000000000000000000000000000000000000000000000000000000000000000000000000000000000000000000000000000000000000000000000000000000000000000000000000000)
 (.leaf 33111033115000000000000000000032112033112033113033114033115000000000000000000032113033113033114033115031117000000000000000000033115033114033115033116032119000000000000000000033115033115033116033117032120000000000000000000031117033116033117033120031122000000000000000000031120032120033120033121031122000000000000000000000000033120033121033124032125000000000000000000031122033121033124000000032126000000000000000000031122033124000000000000000000000000000000000000000000000000000000000000000000000000000000000000000000000000000000000000000000000000000000000000000000000000000000000000000000000000000000000000000000000000000000000000000000000000000000000000000000000000000000000000000000000000000000000000000000000000000000000000000000000000000000000000000000000000000000000000000000000000000000000000000000000000000000000000000000000000000000000000000000000000000000000000000000000000000000000000000000000000000000000000000000000000000000000000000000000000000000033159000000000000000000000000000000000000033159033160000000000000000000000000000000033159033160033163000000000000000000000000000000033160033163000000000000000000000000000000000000033163000000000000000000000000000000000000000000000000000000000000000000000000000000000000000000000000000000000000)))
 (.node 2 (.node 1 (.leaf 33168000000000000000000000000032172034173034173033176000000000000000000000000032173034173033176033177000000000000000000000000000000033176033177000000000000000000000000000000000000033177000000000000000000000000000000000000000000000000000000000000000000000000000000000000000000000000000000000000000000000000000000000000000000000000033182033183000000000000000000000000000000033182033183032185000000000000000000000000000000032185033187000000000000000000000000000000000000033187000000000000000000000000000000000000000000000000000000000000000000000000000000000000000000000000000000000000000000000000000000000000000000000000033191033192000000000000000000000000000000033191033192032194000000000000000000000000000000032194034196033197000000000000000000000000000000034196033197000000000000000000000000000000000000033197000000000000000000000000000000000000000000000000000000000000000000000000000000000000000000000000000000033199000000000000000000000000000000000000033199034200000000000000000000000000000000033199034200032202000000000000000000000000000000032203033205000000000000000000000000000000000000000000000000000000000000000000000000000000000000000000000000000000033259031258032257032256033256033256033257033258033260032260031258032257032257033257033258033259031273031272031271031270032270033270034272034272031274031273031272031271032271034272034272034273031275030275031273031272031273034272034273034274031276030276030275031273031274034273034274034275031277030277030276030275031275034274034275032277)
 (.leaf 31284030284030282030282031282032282032282032284031290030290030288030287031287032287032288032290031291030291030290030290031290032290032290034293031293030293030291030290031290032290034293032293033297030296030294030294031294032294033296033297032298030296030296030294031294033296033297033298033299030297030296030296033297033297033298033299032308031308031307031306033306000000000000000000032309032308031308031307032305000000000000000000000000032311032311031308000000000000000000000000032315031315031314032312000000000000000000000000000000000000000000000000000000000000000000000000000000000000000000000000000000000000000000000000000000000000000000000000000000000000000000000000000000000000000000000000000000000000000000000000000000000000000000000000000000000000000000033468033473031471000000000000032469033469033472033473032474031474031471000000032470033472033473000000032475032475031474031471033473033473000000000000000000000000000000031476000000000000000000000000000000000000000000000000000000000000000000000000000000000000000000000000000000000000000000033521000000000000000000000000000000000000033521033522000000000000000000000000000000033521033522033525000000000000000000000000000000033525032524033525000000000000000000000000000000032524033525032527000000000000000000000000000000032527033529034530000000000000000000000000000000033529034530034530000000000000000000000000000000034530034530032532000000000000000000000000000000034530032532033531000000000000000000000000000000033531033532033533032539031537031536031535032535033535033536033537))
 (.node 1 (.leaf 33539031538031537031536032536033536033537033538032542031542032539031538033539033538033539033540033546031544032543030542032542034544033545033546033546031545031544032543032543033545033546033547032552031552031549031548032548033550033551032551031556031557031556031555031555033553033554033555033556031558031557031556033555033554033555033556032561030561031560031559032557033557033558033561031562030561030561031560032558033558033561032562000000031577031576031573000000000000000000000000000000031578031577031576000000000000000000000000000000031579031578031577000000000000000000000000000000000000000000000000000000000000032579033580000000000000000000000000000000032579033580034583000000000000000000000000000000034583032582033585000000000000000000000000000000032582033585033586000000000000000000000000000000033585033586000000000000000000000000000000000000033586000000000000000000000000000000000000000000000000033587033588000000000000000000000000000000033587033588033589000000000000000000000000000000033588033589033590000000000000000000000000000000033589033590033591000000000000000000000000000000033590033591033594000000000000000000000000000000033591033594033595000000000000000000000000000000033594033595033596000000000000000000000000000000033595033596000000000000000000000000000000000000000000000000000000000000000000000000000000000000000000000000000000000000000000000000000000000000000000000000032609000000000000000000000000000000000000000000000000000000000000000000000000000000000000000000000000000000000000000000000000000000000000000000000000)
 (.leaf 33120032120032119031117033116034116034119033119033124031122031122000000033120000000000000000000000000032125031122031122033121000000000000000000000000032127032126032125000000000000000000033126000000000000000000000000000000033129034131000000000000000000000000000000000000034131000000000000000000000000000000000000000000000000000000000000000000000000000000000000000000000000000000034144000000000000000000000000000000000000034144033146000000000000000000000000000000033146034148000000000000000000000000000000000000034148000000000000000000000000000000000000000000000000000000000000000000000000000000000000000000000000000000000000000000000000000000000000000000000000000000000000000000000000000000000000000000000000000000000000000000000000000000000000000000000000000000000000033163000000000000000000033159034159034162033163000000000000000000000000033160034162033163034162000000000000000000000000000000034162034165000000000000000000000000000000000000034165000000000000000000000000000000000000000000000000000000000000032171032170032169000000033168000000034171034172034173031172032170032169033169034171034172000000034173032172031172032170032171034172000000000000034173032173032172031172034173000000000000000000))))
 (.node 4 (.node 2 (.node 1 (.leaf 33176000000032173032172034173000000000000000000033177000000000000032173034173000000000000000000000000000000000000000000000000000000000000034181032185000000000000000000033182034184034185034186033187000000000000000000033183034185034186000000000000000000000000000000032185034186000000000000000000000000000000000000000000000000000000034188000000000000000000000000000000000000034188034189000000000000000000000000000000034188034189035190032194000000000000000000033191034191034192034195034196000000000000000000033192034192034195034196033197000000000000000000032194034195034196034197000000000000000000000000034196034196034197034198000000000000000000000000000000034198000000000000034200000000000000000000000000000000000000000000032202000000000000000000033199000000000000000000032203000000000000000000034200000000000000000000033205000000000000000000032202000000000000000000000000000000000000000000032203000000000000000000000000000000000000000000000000000000000000000000000000000000000000000000000000000000000000000000000000000000000000000000000000000000000000000000000000032248000000000000000000000000000000000000034251032250032249032248000000000000000000034250034253032252032251032250034251034250034251034252034254032254032253032252034253034252034253034254034272032271032270032269033269035270035271035271034272031273032271032270033270035271035271034272034273031274031273032271034272035271034272034273034274031275031274031273034272034272034273034274034275031276031275031274034273034273034274034275032277031277031276031275034274034274034275035276)
 (.leaf 32278031278031277031276034275034275035276034277032279031279031278031277032277035276034277035279032280031280031279031278032278034277035279035280032281031281031280031279032279035279035280035281032282031282031281031280032280035280035281035281032282031282031282031281032281035281035281035282032284031284031282031282032282035281035282035283032284031284031284031282032282035282035283035285032285031285031284031284032284035283035285035287032286031286031285031284032284035285035287035287032287031287031286031285032285035287035287035288032288031288031287031286032286035287035288035289032290031290031288031287032287035288035289034291032290031290031290031288032288035289034291035291034293031291031290031290032290034291035291035293032293031293031291031290032290035291035293035293032294031294031293031291034293035293035293035294033296031294031294031293032293035293035294035295033297033297031294031294032294035294035295035295032301032302032301032300032299034300034301035301032302032303032302032301032300034301035301034303033304032304032303032302032301035301034303034304032304032305032304032303032302034303034304033305000000032309032308032305000000000000000000000000000000000000032309032308000000000000000000000000000000000000000000032309000000000000000000000000000000000000000000000000000000000000000000000000000000000000000000000000000000000000000000000000000000032314000000000000000000000000000000000000000000032315032314000000000000000000000000000000000000032316032315032314000000000000000000000000000000000000032316032315000000000000000000000000))
 (.node 1 (.leaf 32316000000000000000000000000000000000000000000000000000000000000000000000000000000000000000000000000000000000000000000000000000000000000000000000000000000000000034465034466000000000000000000000000000000034465034466034467033472032470032469000000033468034470034471034472033473033473032470032469033469034471034472000000000000000000032475032474000000000000000000000000000000000000000000000000000000000000000000000000000000000000000000000000000000000000000000000000000000000000000000000000000000000000000000000000000000000000000000000000000000000000000000000000000000000000000000000000000000000000000000000000000000000000000000000000000000000000000000000000000000000000000000000000000000000000000000000000000000000000000000000000000000000000000000000000000000000000000000000000000000000000000000000000000000000000000000000000000000000000000000000000000000000000000000000000000000000000000000000000000000000000000000000000000000000000000000000000033525000000000000000000033521034521034522034525032524000000000000000000033522034522034525034526032527000000000000000000032524034526034527034528033529000000000000000000033525034527034528035527034530000000000000000000032527034528035527035529032532000000000000000000034530035529034529034532034534032534000000000000033532033533034533033535033545032543032542033541033541033542034542034545033546033546032543032542034544034542034545034546033561032561032558032557033557034559034560034561032562031562032561032558033558034560034561034562034562032564032563031562032562034562034563034564)
 (.leaf 33566032566032565032564034562034564035565034564032566032567032566032565033563035565034564034567032568032569032568032567032566034567034568034569032570032570032569032568032568034568034569034570033571032571032570032569032568034569034570000000000000032572032571032570032570034570000000000000000000000000032574032573000000033572034572034573000000000000000000032574000000034572034573034574000000000000000000000000000000034573034574034575000000000000000000000000000000034574034575034576000000000000000000000000000000034575034576034577000000000000000000000000000000034576034577034580032579000000000000000000000000034577034580034581034583000000000000000000032579034581034582034583032582000000000000000000033580034582034583033584033585000000000000000000034583034583033584034585033594000000000000000000033590033591034591034592033595000000000000000000033591034591034592034593000000000000000000000000000000034595034596034599000000000000000000000000000000034596034599000000000000000000000000000000000000034599000000000000000000000000000000000000000000000000000000000000000000000000000000000000000000000000000000034606000000000000000000000000000000000000034606034607032609000000000000000000000000034606034607034608032610000000000000000000000000034607034608034609000000000000000000000000032609034608034609034610000000000000000000000000032610034609034610033612000000000000000000000000000000033612033614033615000000000000000000000000000000034616034617000000000000000000000000000000000000034617000000000000000000000000000000000000000000000000000000000000)))
 (.node 2 (.node 1 (.leaf 35110033116033115033114033113034113035113035114035115034119033117033116033115033116035115034116035119033119033120033117033116034116034116035119000000000000033120032120033120033119000000000000000000000000033121033120032120033120000000000000000000000000033124033121033120000000000000000000000000000000000000033124033121000000000000000000035123000000000000000000033124000000000000035123035126033126000000000000000000000000035123035126035127033127000000000000000000000000035126035127035128033128000000000000000000033126035127035128035129033129000000000000000000033127035128035129034130034131000000000000000000033128035129034130034130000000000000000000000000000000034132000000035135000000000000000000000000000000000000035135035136000000000000000000000000000000035135035136000000000000000000000000000000000000035136000000000000000000000000000000000000000000000000000000035137000000000000000000000000000000034138034139035140000000000000000000000000000000034139035140000000000000000000000000000000000000000000000000000000033146000000000000000000000000000000035144035145)
 (.leaf 34148000000000000000000034144035144035145034148000000000000000000000000033146035145034148035149000000000000000000000000000000035149000000000000000000000000000000000000000000000000000000000000000000000000000000000000000000000000000000000000000000000000000000000000000000000000000000000000000000000000000000000000000000000000000000000000000000000000000000000000000000000000000000000000034162033160033159000000000000000000035159036161033163033163033160033159034159035159036161034162034165000000000000033163033163034162036163036163000000000000000000000000034162036163036163035166000000000000000000000000000000035166000000000000000000033168000000000000000000000000000000000000034171033169033168000000000000000000000000035169034172032171033169033168000000000000035169035172000000033176034173034173000000000000000000000000000000033177033176034173000000000000000000000000000000000000033177033176000000000000000000000000000000000000000000000000000000000000000000035180034184033182000000000000000000035180035181035182034185033183033182000000034181035181035182035183035190000000000000000000034188000000000000000000034195032194033192033191034191035191035192035195034196034196032194033192034192035192035195035196000000033199000000000000000000000000000000000000000000032202034200033199000000000000000000000000000000032203032202034200000000000000000000000000000000033205032203032202000000000000000000000000000000000000033205032203000000000000000000035204000000000000000000033205000000000000035204035205000000000000000000000000000000035204035205034207))
 (.node 1 (.leaf 33249000000000000000000000000000000000000033257033257033256034256034255035255036257036258033258033258033257033256034256036257036258036259033259033259033258033257033257036258036259036259033260032260033259033258033258036259036259036261033261033261032260033259033259036259036261036262033263033262033261032260033260036261036262036263035264033263033262033261033261036262036263036263035264033264033263033262033263036263036263036265035266033265033264033263035264036263036265036266035267033266033265033264035264036265036266036266035267033267033266033265035266036266036266036268035269033268033267033266035267036266036268036269035270033269033268033267035267036268036269036270035271033270033269033268035269036269036270036270035271034272033270033269035270036270036270036272035276032277034275034274034274036275036275036276035279032279032278032277035276036276036277036278035280032280032279032278034277036277036278036279035281032281032280032279035279036278036279036280035281032282032281032280035280036279036280036281035282032282032282032281035281036280036281036282035283032284032282032282035281036281036282036284035285032284032284032282035282036282036284036285035287032285032284032284035283036284036285035287035287032286032285032284035285036285035287035288035288032287032286032285035287035287035288036289035289032288032287032286035287035288036289036290034291032290032288032287035288036289036290036290035291032290032290032288035289036290036290035292)
 (.leaf 35293032293034293032290035291035292035293036294035295033296032294032293035293036294035295036295035295033297033296032294035294035295036295036297034298033298033297033296035295036295036297036297033299033299033298033297035295036297036297036298034301032300032299033299033299036298036299035301034304033304032302032301035301036302036302000000000000000000000000032304033305000000035306035307000000000000000000000000000000035306035307035308000000000000000000000000000000035307035308035309000000000000000000000000000000035308035309000000000000000000000000000000000000035309000000000000000000000000000000000000000000000000000000000000000000000000000000000000000000000000000000000000000000000000000000000000000000000000000000000000000000000000000000000000000000000000000000000000000000000000000000000000000000000000000000000000000000000000000000000000000000000000000000000000000000000000000000000000000000000000000000035464034470033468000000000000034466035466036469035470034471033469033468000000034467036469035470035471000000000000000000000000000000000000035497035498000000000000000000000000000000035497035498034501000000000000000000000000000000035498034501035500000000000000000000000000000000035500034503035504000000000000000000000000000000035504035505000000000000000000000000000000000000035505000000000000000000000000000000000000000000000000000000000000000000000000000000000000000000000000000000000000000000000000000000000000000000000000000000000000000000000000000000000000000000000000000000000000000000000000000000000000000000000000000000000000)))))
 (.node 8 (.node 4 (.node 2 (.node 1 (.leaf 34525033525033522033521034521000000000000000000034526032524033525033522034522000000000000035524033535033535034534033533034533035533035534035535034541033539033538033537034537035539035540035541034542033540033539033538034538035540035541034542034550033550033549033548034546035548035549035550033549033551033550033549034547035549035550034550035552033551032551033551033549034550035550036551034555033553033552033551035552036551035552035553034556033554033553033552034552035552035553035556034567032566033566033563035565035565035566035567034568032568032566033566034564035566035567034568033572000000000000033571000000035569035572035573034581032579000000000000034577035577034578035579034591033589033588033587034587034588035588035589033591033590033589033588033589035588035589035590034599000000000000000000034595035595035598035599000000000000000000000000034596035598035599034599000000000000000000000000000000034599035599035600000000000000000000000000000000035599035600035601000000000000000000000000000000035600035601034603000000000000000000000000000000034603034603035604000000000000000000000000000000034603035604035605033612000000000000032610034609035611034610035611033614000000000000000000034610034610035611035614033615000000000000000000033612035611035614035615034616000000000000000000033614035614035615035616034617000000000000000000033615035615035616035617000000000000000000000000000000000000000000000000000000000000000000000000000000034641034641035644)
 (.leaf 34641035644035645000000000000000000000000000000035644035645035646000000000000000000000000000000035645035646035647000000000000000000000000000000035646035647035648000000000000000000000000000000035647035648035649000000000000000000000000000000035648035649000000000000000000000000000000000000035649000000000000000000000000000000000000000000000000000000000000000000000000000000000000000000000000000000000000035119034119034116033116035115035116035116000000000000033119034119034116034116035116000000000000000000000000033120033119000000000000000000000000000000000000000000033120000000000000000000000000000000000000000000000000000000000000000000000000035126000000000000000000000000000000000000036124034132000000034131033129034130036128036129036130034132000000000000034131034130036129036130036133000000000000000000000000034132036130036133035134035135000000000000000000034132036133035134035134034138000000000000000000000000036136036137036138034139000000000000000000035137036137036138036141000000000000000000000000034139036141035142035142000000000000000000000000000000035142000000000000034148034148033146034144035144000000036145036146035149000000034148033146035145036145036146037148000000000000000000034148034148036146037148036150000000000000000000000000000000000000000000000000000000000000000000000000000000000000000000000000000000000000000000000000000000000000000000000000036161034162034159000000000000000000000000036160034162033163034162034159035159000000036160036163036163034162033163034162036161036160036163000000))
 (.node 1 (.leaf 36163034165034162033163034162036163000000000000035166000000034165034162036163000000000000000000000000000000000000034165036163000000000000000000000000000000000000000000000000000000000000000000035172034172034171000000000000000000000000000000000000000000034172034171035169000000000000000000035187000000034186034185035183035184037185036187000000000000000000034186035184037185036187000000000000034189034188000000000000000000000000000000035195034195034192034191035191036191036192036193035196034196034195034192035192036192036193036194000000000000000000000000000000036198035199035202000000000000000000000000000000035199035202035202034207000000000000000000035204036204036207036208000000000000000000000000035205036207036208000000000000000000000000000000034207036208000000000000000000000000000000000000000000000000000000000000000000000000000000000000000000000000000000000000000000000000000000000000000000000000000000000000000000000000000000000000000000000000000000000000000000034250000000000000000000000000000000000000000000034251034250000000000000000000000000000000000000034252034251034250000000000000000000000000036257034256034255034254035254000000000000037257036258033257034256034255035255000000037257037257036259033258033257034256036257037257037257036258036259033259033258033257036258037257036258036259036261033260033259033258036259036258036259036260036262033261033260033259036259036259036260037262036263033263033261033260036261036260037262037262036263035264033263033261036262037262037262036263036266035266035264035264036263036263037265037265)
 (.leaf 36269035269035267035267036266037267037268037269036273034272035271035271036270037271037272037272036273034273034272035271036272037272037272037274036275034274034273034272036273037272037274037274036275034275034274034273036273037274037274037275036277034277035276034275036275037275037276037277036278035279034277035276036276037276037277037278036285035285035283035282036282037283037283036286035288035287035287035285036285036286036287036288035292035291034291035289036290036290036291036292036297034298035295035295036295036296036297036298036298033299034298035295036297036297036298036299036299034300033299034298036297036298036299036300035301034301034300033299036298036299036300036301036302035301034301034300036299036300036301036302000000034304034303035301036302036302036303000000000000033305034304034303036302036303000000000000035306000000033305034304000000000000000000000000035307000000000000033305000000000000000000000000000000000000000000000000000000036310037310037310000000000000000000000000000000037310037310036313000000000000000000000000000000037310036313036314000000000000000000000000000000036313036314000000000000000000000000000000000000036314000000000000000000000000000000000000000000000000000000000000000000000000000000000000000000000000000000000000036469034467034466034465035465036465037466036469035470034470034467034466035466037466036469036470035471034471034470034467036469036469036470036471034501000000000000000000035497036497036498036501034503000000000000000000034501036501036502036503035504000000000000000000035500036502036503036504)))
 (.node 2 (.node 1 (.leaf 35505000000000000000000034503036503036504000000000000000000000000000000000000000000036510000000000000000000000000000000000000036510000000000000000000000000000000000000000000000000000000000000000000000000000000000000000000000000000000000000000000000000000000000000000000000000000000000000000000000000000000000000000000000000000000000000000000000000000000000000000000000000000000036516000000000000000000000000000000000000036516036517000000000000000000000000000000036516036517036520000000000000000000000000000000036517036520035520000000034521000000000000000000035520035522000000000000034525034522034521000000000000000000000000036527034528034527034526035524000000000000036526035530035529035527034528036527036526036529036530035539034537034536033535035535037537035538036539034543034542033542034542034542036540037543035544035547033547034546034545034543035544035544037545035548034546033547034546035544035544037545037548036551035552034550033549034550036549036550036551035556034556034555034552035552037553037554036554036556034557034556034555035553037554036554036555035561034561034560034559035557036559036560036561035562034562034561034560035558036560036561036562035565035565034564034563034562036563036564035565035572000000000000034570035568035569036569037570035573033572000000000000035569036569037570036573034576034574034573034572034572036574036575036576034577034576034575034574034576036576036577036578034578034580034577034576034577036578035579036580034584033584034583034582035580035581036581036582034585034585033584034583035581036581036582036583)
 (.leaf 35586034586034585033584034584036582036583036584035587033586034586034585034585036583036584036587035593034591033591034591035589036589036590037591034592034592034591033591035590036590037591037592035598034596034595034594035594036596035597035597034603000000000000000000035600036602036603036604034603000000000000000000035601036603036604036605035609034607034606000000035605036607035606036607034610034608034607034606035606035606036607036608034610034610034609034608034610036608036609036612035614033614033612034610034610036612036613036614000000000000000000000000000000000000000000000000000000000000000000000000000000000000000000000000000000000000000000000000000000000000000000036639034641000000000000000000000000000000036639036640034641000000000000000000000000036639036640036641035644000000000000000000034641036640036641036642035645000000000000000000034641036641036642036645000000000000000000000000000000036650000000000000000000000000000000000000000000000000000000000000000000000000000000000000000000000000000000036652000000000000000000000000000000000000036652036655000000000000000000000000000000036652036655036656000000000000000000000000000000036655036656036657000000000000000000000000000000036656036657036658000000000000000000000000000000036657036658000000000000000000000000000000000000036658000000000000000000000000000000000000000000000000000000000000000000000000000000000000000000000000000000000000000000000000000000000000000000000000000000000000000000000000000000000000000000000000000000000000000000035110000000000000000000000000000000000000))
 (.node 1 (.leaf 35116035115035114035113036113000000000000000000035116034116035115035114036114000000000000000000000000035119034116035115035116000000000000000000000000000000035119034116035116000000000000000000000000000000000000035119000000000000000000000000000000000000000000000000000000000000000000000000000000000000000000000000000000000000000000000000000000035123000000000000000000000000000000000000035125035127035126035123000000000000000000000000037127035129035128035127035125000000000000037127036133034132034132034130036129037129037130037131035134000000034132034132036130037130037131037132037135035136035135000000035134037132037133037134037135000000035136035135035134037133037134038135036141034139034138035137036137036137037140038141035142035140034139034138036138037140038141037142000000000000000000035140035142037142036143037144037148035149034148035145036145037145037146037149036150000000035149034148036146037146037149037150000000000000000000035149037148037149037150000000000000035159000000000000000000000000000000000000000000036163034162036161036160000000000000000000000000035166036163036163000000000000000000000000000000000000035166036163000000000000000000000000000000000000000000035166000000000000000000000000000000000000000000000000000000000000000000037168000000035169000000000000000000000000037168037171000000035172035169000000000000037168037171037172000000000000035172035169000000037171037172037173000000000000000000035172000000037172037173000000000000000000000000000000000000000000000000000000035184035183035182035181036181000000000000000000)
 (.leaf 37185035184035183035182036182000000000000037184036187035187035184035183035184000000037184037185000000000000035187035184037185037184037185000000000000000000000000000000000000000000000000000000000000000000000000000000000000000000000000000000035197035197035196035195036193037193037194037195035197000000035197035196036194037194037195038197035198000000000000035197035197037195038197038198035199000000000000000000035198038198038199037199035202000000000000000000036198038199037199037200035202000000000000000000035199037199037200037201000000000000000000000000035202037200037201037202035203000000000000000000035202037201037202037203036207035205035204000000035203037203037204037205036208034207035205035204036204037204037205037206000000000000000000000000000000037209036210000000000000000000000000000000000000000000000000000000000000000000000000000000000000000000000000000000000000000000000000000000000000000000000000000000000000000000000000000000000000000000000000000000000000000000000000000000000000000000000000000000000000000000000000000000000000000000000000000000000000000000000000000000000000000000000000000000000000000000000000000000000000000000000000000000000000000000000000000000000000000000000000000000000000035253000000000000000000000000000000000000000000035254035253000000000000000000000000000000000000035255035254035253000000000000000000000000037257036257035255035254000000000000000000000000037265036265036263036263037262037262038263038264037268036268036266036266037265037265038267038268037272036272036270036270037269038270038271038271))))
 (.node 4 (.node 2 (.node 1 (.leaf 37274036275036273036273037272038273038273038274037283036284036282036281037281038282038282038284000000035306000000000000000000037304038305038306000000035307035306000000000000038305038306037307000000035308035307035306000000038306037307037308000000035309035308035307000000037307037308000000036310000000035309035308000000037308000000000000037310000000000000035309000000000000000000000000036313000000000000000000037310000000000000037311036314000000000000000000037310000000037311037312000000000000000000000000000000037315000000000000000000000000000000000000000000000000000000000000000000000000000000000000000000000000000000000000000000000000000000000000000000000000000000000000037464035464000000000000000000000000000000000000037466035466035465035464037464000000000000000000036469036469035466035465036465000000000000037467036470035470036469035466037466000000037467037468036501034501035498035497036497036497037498037501036502035500034501035498036498037498037501037502000000000000000000035505000000000000000000000000000000000000000000000000000000000000000000037506000000000000000000000000000000000000037506037509036510000000000000000000000000037506037509037510000000000000000000000000000000037509037510000000000000000000000000000000000000000000000000000000000000000000000000000000000000000000000000000000000000000000000000000000000000000000000000000000000000000000000000000000000000000000000000000000036520000000000000000000036516036516038518038518035520000000000000000000036517038518038518038519000000000000000000000000035520038519037520036522)
 (.leaf 36522037524000000000000035524000000000000000000037524000000000000000000035525035524000000000000000000000000000000036530035530035529036527036526037526037527037530036534035532035531034531037532037532036533037534036539035539035536035535037537037537037538036538037543035543034542035541035540037539038540037541035544034543035543034542036540038540037541037542035544034543034543035543037543037541037542037543035544035544034543034543035544037542037543037544037545035547035544034543035544037543037544037545037548035548035547035544035544037544037545037546037548035549035548035547037545037545037546037547037548035550035549035548037548037546037547038549037553035552036551035550036550038550037551037552037554035553035552036551036551037551037552037553036559035557035556036556036555037557037558036559035569035568035567034568036566037566037567037568037570035572035569035568035569037568037569037570036573035573035572035569036569037569037570036572036587035587035586034585036583037583037584037587036588034588035587035586036584037584037587036588037591035593035590035589036589037589036590037591037592034592035593035590036590036590037591037592037594035593034592035593037591037591037592037593036596035594035593034592037592037592037593037594035597035595035594035593037594037593037594037597036599035599035598035595035597037597036598037599036613035611034610035611036609036610038610037613000000000000035617035616036614037614036615037618000000000000000000000000000000037618037619000000000000000000000000000000000000000000037623037624))
 (.node 1 (.leaf 37623037624037627000000000000000000000000000000037624037627000000000000000000000000000000000000037629037630037633000000000000000000000000000000037630037633000000000000000000000000000000000000000000000000000000000000000000000000000000000000000000000000000000000000000000000000000000000000000000000000037636000000000000000000000000000000000000037636000000036645035645035644034641036641037641037642036645036646035646035645035644036642037642036645036646000000000000000000000000000000036650036650037653036655000000000000000000000000037653037654037655036656000000000000000000036652037654037655037656000000000000000000000000000000037660037661000000000000000000000000000000000000000000000000000000000000000000000000000000000000000000000000000000000000000000000000000000000000000000000000000000000000000000000000000000000000000000000000000000000000000000000000000000000000000000000000000000000000000000000000000000000000000000038046038047000000000000000000000000000000038046038047000000000000000000000000000000000000038047000000000000000000000000000000000000000000000000000000000000000000000000000000000000000000000000000000000000000000000000000000000000000000000000000000000000000000036112036111000000000000000000000000000000000000036113036112036111000000000000000000000000000000036114036113036112000000000000000000000000000000035116036114036113000000000000000000000000000000035116035116036114000000000000000000000000000000000000035116035116000000000000000000000000000000000000000000035116000000000000000000000000)
 (.leaf 36124000000000000000000000000000000000000000000035125036124000000000000000000000000000000000000036126035125036124000000000000000000000000036137036137036136037135038135038135039136038137037140036138036137036136037136039136038137038138038141036141036138036137036137038137038138038141036143035142035142036141038141038141038142038143037149037148036146036145037145037146037146038149000000000000000000000000000000038151000000000000000000036163036160000000000000000000000000000000000000000000036163036160000000000000000000000000000000000000000000036163000000000000000000000000000000000000000000000000000000000000000000038167037172000000000000000000037168037169037169039171000000036180000000000000000000000000000000000000000000036181036180000000000000000000000000000000000000036182036181036180000000000000000000000000000000035184036182036181000000000000000000000000000000000000036187037185037184039185039186039186000000000000000000036187037185039186039186038189000000000000000000000000000000039186038189038190000000000000000000000000000000038189038190037190038197035197035197036194037194038196038197038198038198035198035197035197037195038197038198038199038199036198035198035197038197038198038199038200037209000000036208036207037205038205038206038207036210000000000000036208037206038206038207039209000000000000000000000000036210039209039209038210000000000000000000000000000000039209038210038211000000000000000000000000000000038210038211038214000000000000000000000000000000038211038214038215)))
 (.node 2 (.node 1 (.leaf 38214038215000000000000000000000000000000000000038215000000000000000000000000000000000000000000000000000000000000000000000000000000000000000000000000000000000000000000000000000000000000000000000000000000000000000000000000000000000000000000000000000000000000000000000000000000000000000000000000000000000000000000000000000000000000000000000000000000000000000000000000000000000000000000000000000000000000000000000000000000000000000000000000000000000000000000000000000000000000000000000000000000000000000000037257000000000000000000000000000000000000038260036259036258037257037257000000038258038259038261036260036259036258037258038258038259038260038261037262036260036259038260038259038260038261038263036263037262037262038261038261039262039263038264037265036263037262037262039262039263038264038267037267037265037265038264038264039266039267038271037271037269037269038268039269039270039270038273037274037272037272038271039272039272039273038282037283037281037280038280039281039281039283036286036287036286037283038284038283039285039287036288036288036287036286037284039285039287039287036289036289036288036287036286039287039287039288036290036290036289036288036288039287039288037290036291036291036290036289036289039288037290037290037293036293036292036291036291037290037292037292037296036296036295036294036293037293037295037296037299036299036298036297038297038297038298038299037300036300036299036298036296038298038299039300037303036303036302036301036301038301038302000000037304000000036303036302036301038302000000000000)
 (.leaf 37307000000000000000000038305000000000000000000037308000000000000000000038306000000000000000000000000037310036310000000000000000000000000000000037315000000036314036313037311000000039313038315000000000000000000036314037312039313038315000000000000000000000000000000000000000000000000000000000000000000000000000000000000000000000000000000000000000000000000000000000000000000000000000000000000000000000000000000000000000000000000000000000000000000000000000000000000000000000000000000000000000000000000000000000000000000000000000000000000036465037464000000000000000000000000000000037471036471036470036469037467000000000000000000037472000000036471036470037468000000000000000000000000000000000000000000000000000000000000000000000000000000000000000000000000000000000000038494036497036497036496000000037495038495038496038497037501036501036498036497036497038497038498038501037502036502036501036498037498038498038501038502000000000000000000000000000000038505000000000000037509000000000000000000000000000000000000000000037510036510000000000000037506000000000000038510000000000000000000000000000000039512037511037513000000000000000000000000000000037513038513037516000000000000000000000000000000038513037516037516038518036517036516000000000000037516037516038517038518036520036517036516036516037516038517038518038519035520036520036517038518038517038518039520036522000000035522035520038519039520039521039522037524000000000000035522037520039521039522038524000000000000000000000000036522039522038524000000000000000000000000000000000000000000000000000000))
 (.node 1 (.leaf 38530035531036530036529037527037528039528037531037535036535036534036531036533038531038532038535038540036540035540036540037538037539038539038542038550036549037548037548037547038549038550038551038550036550036549037548038549038550038551038552037557036555036554037554037553038555038556037556037563036563036562036561037559037560037560038561036572036573037570036569037569038569038570038571036572036574036573037570037570038570038571037574037581036581036580035579036579038577038580037580037587036587036584036583037583038585038586037587036588036588036587036584037584038586037587038586036590036590036589036588037588038588038589039590037597035597036596037594037593037594038594038595036598035597035597036596037594038594038595038598037600036600036599035597036598038598038599038600036603036604036603036602038602038602038603038604037605036605036604036603036603038603038604037604036608036607035606036607036607038605038606038609037610036608036607035606036608038606038609038610036610036609036608036607036608038609038610038611037613036613036612036609036610038611038612038613037614036614036613036612038610038612038613038614036615036617036614035613036614037614038614038615037618000000036617036614037614038614038615038618037619000000000000036617036615038615038618038619000000000000000000000000037624038624037625038626000000000000000000000000000000038626038627038630037633000000000000000000037629038631038632037632036639000000000000000000037636038638037637037639036645036645036642036641037641038641038644038645036646036646036645036642037642038644038645038646)
 (.leaf 36647036647036646036645036645038645038646038647036648036648036647036646036646038646038647037648036649036649036648036647036647038647037648038649036650000000036650036649036649038649038650038651036650000000000000036650036650038650038651038652037653000000000000000000036650038651038652038653037654036652000000000000036650038652038653038654037660000000000000036658036657038658038659038660037661000000000000000000036659038659038660038661000000000000000000000000000000038662038663038664000000000000000000000000000000038663038664000000000000000000000000000000000000000000000000038673000000000000000000000000000000000000038673037673000000000000000000000000000000037673038673000000000000000000000000000000000000000000000000000000000000000000000000000000000000000000000000000000000000000000000000000000000000000000000000000000000000000000000000000000000000000000000000000000000000000000000000000000000000000000000000000000000000000000000000000000000000000000000000000000000000000000000000000000000000000000000000000000000000000000000000000000000000000000038039039040000000000000000000000000000000038039039040039041000000000000000000000000000000039040039041039044000000000000000000000000000000039041039044038045038046000000000000000000000000039044038045038045000000000000000000000000000000038048039050038051000000000000000000000000000000039050038051038051000000000000000000000000000000038051038053038053000000000000000000000000000000038053039055039056000000000000000000000000000000039055039056000000000000000000000000000000000000000000000000000000))))))
 (.node 16 (.node 8 (.node 4 (.node 2 (.node 1 (.leaf 37127000000000000000000000000000000000000000000037128037127000000000000000000000000000000000000037129037128037127000000000000000000000000000000037130037129037128000000000000000000000000000000037131037130037129000000000000000000000000000000037132037131037130000000000000000000000000000000037133037132037131000000000000000000000000039136037136038135037134038134000000000000039136038141038141037140036137038137039137039138039139038142037142038141037140038138039138039139039142037146037145037144036144038143039145040145040145037146037146037145037144038144040145040145039146038149037149037146037145037146040145039146038149038150037150037149037146037146039146038149039150000000000000000000000000000000038153000000000000000000000000000000000000000000000000000000000000000000000000000000000000000000000000000000000000000000000000000000000000000000000000000000000000037169037171037168000000038167039167038168039171039171037172037171037168037169038168039171039172038173037173037172037171037169039171039172039173038174000000037173037172039171039172039173039174000000000000000000000000000000039175000000000000000000000000000000000000000000000000000000000000000000000000000000000000000000000000000000000000000000000000000000000000000000000000000000000000039185037184000000000000000000000000000000000000039186037185037184000000000000000000000000000000)
 (.leaf 39186000000037185037184039185000000000000000000038189000000000000037185039186000000000000039187038190000000000000000000039186000000039187039190038194037192037191037190039191039192039193039194038195037193037192037191038191039193039194000000000000037201037200037199039201039201000000000000039202037202037201037200039201000000000000000000039205037204037203037202039202000000000000039204039209036210037209037206038206039206039207039208039209000000036210037209038207039207039208039209038214000000000000000000038210039212039213039214038215000000000000000000038211039213039214038215000000000000000000000000000000039216000000000000000000000000000000000000000000000000000000039219000000000000000000000000000000000000039219039220000000000000000000000000000000039219039220000000000000000000000000000000000000039220000000000000000000000000000000000000000000000000000000000000000000000000000000000000000000000000000000000000000000000000000000000000000000000000000000000000000000000000000000000000000000000000000000000000000000000000000000000000000000000000000000000000000000000000000000000000000000000000000000000000000000000000000000000000000000000000000000000000000000000000000000000000000000000000000000000000000000000000000000000000000000000000000000000000000000037257000000000000000000000000000000000000039262037262038261038261038260039260039261040262039266037265038264038263039263039263040265040266039267038267037265038264038264040265040266040266039270038270038268038268039267040268040269040269039272038273038271038271039270040271040271040272))
 (.node 1 (.leaf 39281038282038280038279039279040280040280040282039287036286037284038284038283040285040285040287039287036288036286037284039285040285040287040287039288036289036288036286039287040287040287040288037290036290036289036288039287040287040288040289037290036291036290036289039288040288040289040290037292036292036291036290037290040289040290040290037292037293036292036291037290040290040290040291037293036293037293036292037292040290040291040293037295037295036293037293037292040291040293040293037296037296037295036293037293040293040293040295038297038297037296037295037295040293040295039297038298036296038297037296037296040295039297039298038302036301036301037300039300039300039301039302000000038305037304037303000000000000000000000000000000038306038305037304000000000000000000000000000000000000037308037307000000000000000000000000000000000000000000037308000000000000000000000000000000000000000000000000000000000000000000000000000000037311000000000000000000000000000000000000039313037312037311000000000000000000000000000000038315037315037312037311000000000000000000000000000000000000037315037312039313000000000000000000000000000000000000000000000000000000000000000000000000000000000000000000000000000000000000000000000000000000000000000000000000000000000000000000000000000000000000000000000000000000000000000000000000000000000000000000000000000000000000000000000000000000000000000000000000000000000000039406000000000000000000000000000000000000039406000000000000000000000000000000000000039406000000039410000000000000000000000000000000000000039410000000)
 (.leaf 39410000000039410000000000000000000000000000000000000039410039413000000000000000000000000000000039410039413000000000000000000000000000000000000039413000000039415000000000000000000000000000000000000039415039416000000000000000000000000000000039415039416000000000000000000000000000000000000039416000000000000000000000000000000000000000000000000000000000000000000000000000000000000000000000000000000000000000000000000000000000000000000000000000000000000000000000000000000000000000000000000000000000000000000037467000000000000000000000000000000000000000000037468037467000000000000000000000000000000000000037471037468037467000000000000000000000000000000037472037471037468000000000000000000000000000000000000037472037471000000000000000000000000000000000000000000037472000000000000000000000000000000000000000000000000000000000000000000000000000000000000000000000000000000000000000000000000000000000000000000000000000000000000000000000000038501037501037498036497038497039497039498039499038502037502037501037498038498039498039499039502000000000000000000000000037504039504039505000000000000037509037506000000000000000000000000000000038510037510037509037506000000000000000000039508037511000000037510037509000000000000039508039511037511000000000000000000037511039511039512038513037513000000000000000000039512039512038513039512037516000000000000000000037513039512038513038515037516036516000000000000037516038515039517039518039521037520038519038518038518039520039521039522039522036522037520038519039520039521039522039523)))
 (.node 2 (.node 1 (.leaf 38524037524036522037520039521039522039523038524000000000000037524036522039522039523038524039525000000000000000000000000000000039525000000000000000000037526000000000000000000000000000000000000037528037527037526000000000000000000000000039527039528037530037527037526000000000000039527039528037531038530037530037527037528039527039528040530038535037535037534036533038531038532039532039533038536037536037535037534038532039532039533039536038539036538037538037537037536039537038538038538038548037546037545037544037545038545038545038548037560037562037559037558038558038559039561039562038565037565036564037563038561038562039562039565037564037566037565036564037563039562039565039566037574037573036572036572038571039571038572039573037575037576037573036572037574038572039573039574039575037577037576037573037574039573039574039575038580036579036579037578038576039576039579039580037580037581036579036579038577039579039580039581038583037583037582037581037580039581040582039583038584036583037583037582037582040582039583039584039587037587036588037587037587038586039586039587039590036590037589037588038588039588039589040591037592037591036590037589038589039589040591040592038594037592037591036590039590040591040592038594037594037593037592037591037592040592038594039595038598036598037597037594038594039596039597039598038599037599036598037597038595039597039598039599038609036608036608036607038605038605040608040608038610037610036608036608038606040608040608038609038618037618036615037614038614038614039615039616038619037619037618036615038615039615039616038619)
 (.leaf 38619039621038622037625037627037624037623038623039625038626038626038630000000000000000000038626038627039627038629037634000000000000037633037632039633039634039635037635000000000000000000037634039634039635039636037635000000000000000000037634039635039636038637038638037636000000000000037635039636038637038637038644037642037641037640038640039642039643039644038645036645037642037641038641039643039644038644000000000000000000000000000000038664039666038666000000000000000000000000000000039666038667039668000000000000000000000000000000038667039668038671000000000000000000000000000000039668038671038671037673000000000000000000000000038671039673038673000000000000000000000000037673038673039675038676000000000000000000000000038673039675038676038676000000000000000000000000000000038676038678038678000000000000000000000000000000038678000000000000000000000000000000000000000000000000000000000000000000000000000000000000000000000000000000000000000000000000000000000000000000000000000000000000000000000000000000000000000000000000000000000000000000000000000000000000000000000000040034040035000000000000000000000000000000040035039036040037000000000000000000000000000000039036040037040038038039000000000000000000000000040037040038039040038045000000000000000000039041039042040042040045038048000000000000038047038045039046040048040049039050000000000000000000038048040048040049040050038051000000000000000000038048040049040050039050038053000000000000000000038051039050040050040051038053000000000000000000038051040050040051040052))
 (.node 1 (.leaf 39055000000000000000000038053040051040052039055039056000000000000000000038053040052039055040056000000000000000000000000000000039058040060039061000000000000000000000000000000040060039061039061000000000000000000000000000000039061039063040062000000000000000000000000000000040062039065039065000000000000000000000000000000039065040065039068000000000000000000000000000000040065039068039068000000000000000000000000000000000000040071039073000000000000000000000000000000000000000000000000000000000000000000000000000000000000000000000000000000000000000000000000000000000000000000000000000000000000000000000000000000000000040102040103000000000000000000000000000000040102040103040104000000000000000000000000000000040103040104000000000000000000000000000000000000000000000000000000000000000000000000000000000000000000000000040126000000000000000000000000000000000000040126040127000000000000000000000000000000040126040127040128000000000000000000000000000000040127040128040129000000000000000000000000000000040128040129040130000000000000000000000000000000040129040130039133000000000000000000000000000000040130039133039133000000038134000000000000000000039133040135039135039142038142038141038138039138040140040141040142040143038143038142038141039139040141040142040143039145038143037143038143040143040143040144040145040145038144038143037143038143040144040145041146038149038149037146037146040145041146039146041148039150038150038149037146039146039146041148040150039151038151038150038149038149041148040150040151038153000000000000000000038152040152040153000000)
 (.leaf 38152040153000000000000000000000000000000000000038153000000000000000000000000000000000000000000000000000000000000000000000000000000000000000000000000000000000000000000000000000000000000000000000000000000000000000000000000000000000000000000000000000000000000000000038168037169038167000000000000000000000000000000039171037169037169038167039167000000000000000000039172039171037169037169038168000000000000040172000000000000000000000000000000000000000000000000000000000000000000000000000000000000000000000000000000000000000000000000000000000000000000000000000000039185000000000000000000000000000000000000039190038190038189039186000000000000000000000000040190037190038190038189039187000000000000000000000000038197038196038195000000000000000000000000000000038198038197038196000000000000000000000000000000038199038198038197000000000000000000000000039200038200038199038198000000000000000000000000039201039201038200038199000000000000000000000000000000038203039202000000000000000000000000000000039212038210039209039209039208041208040209040210039213038211038210039209039209040209040210041212039220000000000000000000000000040218040219040220000000000000000000000000000000000000000000000000000000000000000000000000000000000000000000000000000000000000000000000000000000000000000000000000000000000000000000000000000000000000000000000000000000000000000000000000000000000000000000000000000000000000000000000000000000000000000000000000000000000000000000000000000000000000000000040252000000000000000000000000000000000000040252040255))))
 (.node 4 (.node 2 (.node 1 (.leaf 40252040255000000000000000000000000000000000000040255000000000000000000000000000000000000000000000000000000000000000000000000000000000000000000000000000000000000040265038264039263039262040262040262041264041265040266039266038264039263039263041264041265041265040269039269039267039267040266041267041268041268040271039272039270039270040269041270041270041271040280039281039279039278040278041279041279041281040283039283039281039281040280041281040281041283040285039285038283039283040283041283041285041286040287039287039287039285040285041286041286041287040290037290037290039288040288041289041289041291040290037292037290037290040289041289041291041291040291037292037292037290040290041291041291041292040293037293037292037292040290041291041292041293040293037295037293037292040291041292041293041294040295037296037295037293040293041293041294041294039297038297037296037295040293041294041294040297039298038298038297037296040295041294040297041298000000000000000000000000000000040303039304039304000000000000000000000000000000039305039305040308000000000000000000000000000000039305040308040309000000000000000000000000000000040308040309040310000000000000000000000000000000040309040310000000000000000000000000000000000000040310000000000000000000000000000000000000000000000000000000000000000000039313000000000000000000000000000000000000000000000000038315039313000000000000000000000000000000000000000000038315000000000000000000000000000000000000000000000000000000000000000000000000000000000000000000000000000000000000000000000000)
 (.leaf 40403000000000000000000000000000000000000040403039406000000000000000000000000000000040403039406039406000000000000000000000000000000039406040406039408000000000000000000000000000000039408040410039410039413000000000000000000000000039410040412040413000000000000000000000000039410040412040413040414000000000000000000000000000000040417040418040419000000000000000000000000000000040418040419000000000000000000000000000000000000040419000000000000000000000000000000000000000000000000000000000000000000000000000000000000000000000000000000000000000000000000000000000000000000000000000000000000000000000000000000000000000000000000000000000000000000000000000000000000000000000000000000000000000000000000000000000000000000000000000000000000000000000000000000000000000000000000000000000000039502038502038501038498039498040498040499040502039503038503038502038501039499040499040502039503000000000000000000000000000000000000000000040507039511037511038510000000000000040507040510039511039512039512037511038510039508040510039511041511038513038513037513037511038513041512041513041515038515037516038513037513039512041513041515040516039517037516037516038513038513041515040516040517039518037516037516037516038515040516040517040518000000000000000000000000000000039525039525040526040530037531039528037528039527040527040528040529))
 (.node 1 (.leaf 39532037531037531039528039528040528040529040530038532038531037531037531040530040529040530040531039536038536038535038532039532039532040535039535038539037539038539038536038538041536040537041539038540038539037539038539038538040537041539040539038541038542038539037539038539041539040539040540038542037542038542038539038540040539040540040541038543038544037542038542038541040540040541040544038543038545038544037542038542040541040544040545038545037545038545038544038543040544040545040546038545038547037545038545038543040545040546040547038548038548038547037545038545040546040547040548038548038549038548038547038545040547040548040549038548038550038549038548038548040548040549040550038555038555038554038553039551039552040552040553038555037556038556038555038555040553039556040557038558038557037556037556038555040557040558040559038559038558038557037556039556040558040559039560039561037560038558038557038558040559039560040561039565038565037563038561038562039562040562040563039566037564038565037563039562040562040563039566038570038570038569038568039568039568039569040570039579038577038576039575039575041577040578040579039580038580038577038576039576040578040579040580039584038584038583037582040582040582040583040584040592037592039590038589039589040589040590041592038594038594037592039590040591040590041592040592039595037594038594037592040592041592040592040595039596038594037594038594038594040592040595040596040601038603038602038601038601040601040602040603038604037604038604038603040601040603040604041604040605038604037604038604038603040604041604040606)
 (.leaf 38605038605038604037604038604041604040606040607040608038606038605038604040605040606040607040608040608038609038606038605038605040607040608040609038609038610038609038606040608040608040609040610040610038611038610038609040608040609040610039611039612038612038611038610038609040610039611040610038619038619038618038615039615040615040616039618039621038621000000038619038619039618040620040621038622000000038621000000038619040620040621039622038627038626037625038624038626040624039627040628038629038630038627038626038627040628040629040630039633037632038632038631039629039630040630040631039634037634037632038632038632040630040631040634038638037637038638037635038637039636039636041638038638037639037637038638038637039636041638041640039641038639037639037637038638041638041640041640039642038640038639037639038638041640041640041641038650038651038650038649038648040649040650040651040652038652038651038650038649040650040651040652039653038653038652038651038650040651040652040653039654038654038653038652040652040652040653039653039659038659038658038657039655040655040656040657038660038660038659038658039656040656040657040658038662038662038661038660038660040658039661039661039664038664038663038662038662039661040663040664038666000000000000000000038664041664041665041666038667000000000000000000038666041666041667040669038671000000000000000000039668040670039669040672039673038673000000000000038671039669040672040673038673037673038673000000038671040672040673040674038676000000038673037673038673040674040675040676038678000000000000000000038676040676040677040678)))
 (.node 2 (.node 1 (.leaf 38678000000000000000000038676040677040678039679000000000000000000000000038678040678039679000000000000000000000000000000000000000000000000000000000000000000000000000000000000000000000000040701000000000000000000000000000000000000040701000000000000000000000000000000000000000000000000040034039040039040038039000000040038040039040039041040039042039041039040038039039040040039041040041043040045038045039044039041039042041043040044041045040048038048038045038045039045041046041047042048040049038048038048038045039046041047042048041049039055039055038053038053040051041053041054041055040056039056039055038053040052041054041055041056039057000000039056039055039055041055041056040056039058000000000000000000039057040056040056041057039061000000000000000000039058041057040058040060039063000000000000000000039061040060040062040062039065000000000000000000039063040062040062041063039065000000000000000000040062040062041063041064000000000000000000000000039068040067041067040070000000000000000000000000039068041067040070040071039073000000000000000000000000040071040073040074000000000000000000000000000000040076041076041079000000000000000000000000000000041076041079041080000000000000000000000000000000041079041080000000000000000000000000000000000000041080000000000000000000000000000000000000000000000000000000000000000000000000000000000000000000000000000000000000000000000000000000000000000000000000000000000000000000000000000000000000000000000000000000041095000000000000000000000000000000000000041095041096000000000000000000000000000000041095041096041097)
 (.leaf 41096041097040098000000000000000000000000000000041097040098000000000000000000000000000000000000000000041098041099000000000000000000000000000000041098041099041100000000000000000000000000000000041099041100041103000000000000000000000000040103041103041106040106000000000000000000000000000000040106041106000000000000000000000000000000000000000000000000041109000000000000000000000000000000000000041109000000000000000000000000000000000000041109000000000000000000000000000000000000000000000000041112041113000000000000000000000000000000041112041113041114000000000000000000000000000000041113041114041115000000000000000000000000000000041114041115040118000000000000000000000000000000041115040118040118000000000000000000000000000000000000000000000000039133000000000000000000040129000000000000000000039133000000000000000000040130000000000000041132040135000000000000000000039133000000041132041133039135000000000000000000039133041132041133041134041137039136000000000000039135041134041135041138039138039137039136000000041137041135041138041139040140039138039137039136041137041138041139041140040141039139039138039137039138041139041140041141039146039146040145040145041146000000000000000000041148038149039146040145041146000000000000041147040150039150038149039146039146000000041147041148040151039151039150038149041148041147041148041149000000000000000000038153000000000000000000000000000000000000000000000000000000000000000000000000000000000000000000000000000000000000000000000000000000000000000000000000000000000000000000000000))
 (.node 1 (.leaf 41163000000000000000000000000000000000000041163040165000000000000000000000000000000040165000000000000000000039167000000000000000000000000000000000000000000038168039167000000000000000000000000000000000000039171038168039167000000000000000000000000040172039172039171038168000000000000000000000000040173039173039172039171000000000000000000000000000000000000000000039175000000041173041174041175000000000000000000000000000000041175000000000000000000000000000000000000000000000000000000000000000000000000000000000000000000000000000000000000000000040190039190039187000000000000000000041189000000039193039192040190000000041189041190041193000000039194039193039192000000041190041193041194000000000000039194039193000000041193041194041195000000000000000000039194000000041194041195000000000000000000000000000000000000041195000000000000000000000000000000000000000000000000000000000000000000000000000000000000000000000000000000000000000000039200000000000000000000000000000000000000000000039201039200000000000000000000000000000000000000000000039201039200000000000000000000000000000000000000000000039201000000000000000000000000000000000000000000000000000000000000000000000000000000000000000000000000000000000000000000000000000000039204000000000000000000000000000000000000041208039207039206040205000000000000000000000000041208039208039207039206040206000000000000041208041212039213039212039209040209042209041210041211041212039214039213039212040210041210041211041212)
 (.leaf 39215038215039214039213041212041211041212041213040216039216038215039214041212041212041213041214039217000000039216038215039215041213041214042217040219039219000000000000039217042217042217041217000000000000000000000000000000041221000000000000000000000000000000000000000000000000000000000000000000000000000000000000000000000000000000000000000000000000000000000000000000000000000000000000000000000000000000000000000000000000000000000000000000000000000000000000000000000000000000000000000000000000000000000000000000000000000000000000040255000000000000000000000000000000000000000000000000000000000000000000040252000000000000000000000000000000000000000000000000000000000000000000000000000000000000000000000000000000000000000000000000039258000000000000000000000000000000000000039259039259039258000000000000000000000000041259039260039260039259039258000000000000041259041260041261039261039260039259039259041259041260041261041264039263040262039261041261041261041262041263041265040265039263040262040262041262041263042264041268040268040266040266041265042266041266041267041270040271040269040269041268041268041269042270041279040280040278040277041277042278042278042280041286040285040285040283041283042283041285042286041287040287040287040285041286042286041287041288041293040293040291040290041291041292042292042293041294040295040293040293041293042293042294041294041298039298039297040295041294041294041295041298039299039300039299039298041298041298041299042299041300039301039300039299039299041299042299041299039301039302039301039300039299042299041299042302)))))
 (.node 8 (.node 4 (.node 2 (.node 1 (.leaf 40303000000039302039301041300041299042302042302039304000000000000039302039301042302042302042303039305000000000000000000039304042303000000000000039305000000000000000000039304000000000000000000040308000000000000000000039305000000000000000000040309000000000000000000039305000000000000000000000000000000000000000000000000000000000000000000000000000000000000000000000000000000000000000000000000000000000000000000000000000000000000000000000000000000000000000000000000000000000000000000000000000000000000000000000000000000000000000000000000000000000000000000000000000000000000000000000000000000000000000000000000000000000000000000000000000000000000000000000000000000000000000000000000000000000000000000000000000000000000041396000000000000000000000000000000000000041396041397000000000000000000000000000000041396041397041400000000000000000000000000000000041397041400040400000000000000000000000000000000040400040400040402039406000000000000000000000000040402041403041406039406000000000000000000040403041403041406041407040410039410000000039406040406040407041409041410039410000000039410000000039408041409041410041411040417000000039416039415039414042413042415042415040418000000000000039416039416042415042415041418000000000000000000000000000000040420040422040423000000000000000000000000000000041425040426000000000000000000000000000000000000000000000000000000000000000000000000000000000000000000000000000000000000000000000000000000000000000000000000000000000000000000000000000000000000000000000000000000000000000000000000000000000000000000040481041482)
 (.leaf 40481041482041483000000000000000000000000000000041482041483040485000000000000000000000000000000040485041487041488000000000000000000000000000000041487041488041489000000000000000000000000000000000000000000000000000000039494000000000000000000000000000000000000039497039496039495039494000000000000000000042497040502039502039499039498040498041498041499041502039503039503039502039499040499041499041502041503040505039505039504039503039503041503041504000000040510039508000000000000000000000000000000000000039511039511039508000000040507000000000000000000041512038513039512039511039511000000000000000000041513039512038513039512041511000000000000000000041515038513039512038513041512000000000000042514040516038515038513039512041513000000042514041514040517039517038515038513041515042514041514041515040522039522039521039520039518040518041519041520039525039525038524039523039522040521042522041525039525000000039525038524039524042522041525041526039525000000000000039525039525041525041526041527039532039532038532039532040530040531041531041532040535039533039532038532040531041531041532041533039535039536039533039532039532041532041533041534041536038538039537039536039535041534040535041536041539038539038538038538041536041536041537041538040544038543038542038541040540041540041541041542040545038543038543038542040541041541041542041543040557038555038555038555040553040554042556042556040558039556038555038555039556042556042556041558040562039562039561038559039560041560041561041562039566039566039565039562040562042564041565041566))
 (.node 1 (.leaf 39568039568038568038566039567040566041567041568039569039569039568038568040567041567041568041569039572038572039571038570040570041570041571041574041577039575039574039573040573041575041576041577040578039576039575039574040574041576041577040578040579039579039576039575041577041577040578042579040588039586038586038584039585041586041587041588039587039587039586038586041587041587041588040588040595039595038594040592041592041593040594041595040602039602038601039600039599040599041601041602039614038614039613038614040612040613041613041614039618038619039616039615040615040616040616041619040620038619038619039616040616040616041619041620040621039621038619038619039618041619041620041621039627038626038626039625039625040624041626041627040628038627038626038626040624041626041627041628040629039627038627038626039627041627041628041629040634039634039633038632040630041630041631042633039633039635039634039633040631041631042633041635039636038637039636039635039633041635042636042636039636038637038637039636039636042636042636042637041638038638038637038637039636042636042637041639041640038638038638038637039636042637041639041640041640039641038638038638041638041639041640041641041641039642039641038638041640041640041641042642041643039644039643039642041641042642041641041642040645038644039644039643040641041641041642042645039645039646038644039644041643041642042645041646040648039648039647039646039645041646042646041646039661039661038660039659040657041659041660041661039661038662039661038660040658041660041661041662040663039663038662039661039661041661041662041663)
 (.leaf 40664039664039663038662039661041662041663041664041666038666039666038664041664041665041666041667041667039666038666039666041665041666041667041668040669038667039666038666041666041667041668041669040670039668038667039666041667041668041669040669040673039673038671038671039669040670041672041673000000000000000000000000000000040680041680000000000000000000000000000000000000041680000000041682000000000000000000000000000000041682040683040685000000000000000000000000000000040685040685042686000000000000000000000000000000040685042686041687000000000000000000000000000000042686041687041690000000000000000000000000000000041687041690040690000000000000000000000000000000040690041692041693000000000000000000000000000000000000041693041696000000000000000000000000000000041693041696000000000000000000000000000000000000041696000000000000000000000000000000000000000000000000000000000000000000000000000000000000000000000000000000000000000000000000000000000000000000000000000000000000000000000000000000000000000000000000041701041702000000000000000000000000040701041701041702041703000000000000000000000000000000041702041703041704000000000000000000000000000000041703041704041707000000000000000000000000000000041707040706041707000000000000000000000000000000041707040708041709000000000000000000000000000000040708041709041710000000000000000000000000000000041709041710041711000000000000000000000000000000041710041711041712000000000000000000000000000000041711041712041715000000000000000000000000000000041712041715041716000000000000000000000000000000000000042031041034)))
 (.node 2 (.node 1 (.leaf 40034000000000000000000000000042031041034041034041037040035040034000000040034041034041036041036041043039042039040039040040039042041042042042043040044040042039042039040041040042042042043042044041046039045040045040042040044042044042045042046041050040050040049040048042048042048041049041050040067039068040065039065041064041065042065041068040071000000000000039068041067041068043069043069040071000000000000000000040070043069043069042070040073040071000000000000040071043069042070043072040074039073040071000000040071042070043072042074040074040075039073040071040073043072042074043075040075000000040075039073040074042074043075041076040076000000000000040075040074043075041076042077041079000000000000000000040076042077042078041079041080000000000000000000041076042078041079041079000000000000000000000000000000042081042082041083000000000000000000000000000000042082041083041083000000000000000000000000000000000000000000000000000000000000000000000000000000000000000000042089000000000000000000000000000000000000042089041091000000000000000000000000000000041091042093042094041095000000000000000000000000042093042094041095041096000000000000000000000000042094041095041095041103000000000000000000041099043100042100042103040102040102000000000000041100042100042103041103041106040104040103040102040102041103042103043105040106000000040104040103041103042103043105042107000000000000000000000000041106041107041107042108000000000000000000000000000000042108042109042110000000000000000000000000041109042109042110042111040118000000000000000000041114041114042115042118)
 (.leaf 40118000000000000000000041115042115042118043117000000000000000000000000040118042118043117042118000000000000000000000000040118043117042118041120000000000000000000000000000000041123000000000000000000040127040126000000000000000000000000000000000000040128040127040126000000000000000000000000000000040129040128040127000000000000000000000000000000040130040129040128000000000000000000000000000000039133040130040129000000000000000000000000041138041137041137039135041134000000000000000000041144040144040143040142042142000000000000000000040152040153040152040151041149000000000000000000000000000000040153040152041150000000000000000000000000000000000000040153040152000000000000000000000000000000000000000000000000000000000000000000000000000000000000000000000000000000000000000000000000000000000000000000000000000000000000000000000000000000000000000000000000000000000000000000000000000000000000000000000000000000000000000000000000000000000000000000000000000000000000000000000000000000000000000000000000000000000000000000000000000000000000000000000000000000000000000000000000000000000000000000000000000000000000000000040165000000000000000000000000000000000000000000000000000000000000000000041163000000000000000000000000000000000000000000040165000000000000000000000000000000000000000000000000000000000000000000000000000000000000000000000000000000000000000000000000000000000000000000000000000000000000000000000000040173040172000000000000000000000000000000000000000000000000000000041174042174042175042178000000000000000000000000041175042175042178000000))
 (.node 1 (.leaf 42178000000000000000000000000000000000000000000000000000000000000000000000000000000000000000000000000042180042181000000000000000000000000000000042180042181000000041193000000000000000000041189000000042190042193041194000000000000000000041190042190042193042194000000000000000000000000000000042196000000000000000000000000000000000000000000000000000000000000000000000000000000000000000000000000000000000000000000000000000000000000000000000000000000000000000000000000000000000000000000000000000000000000000000000000000000000000000000000000000000000000000000040206000000000000000000000000000000000000000000041208040206000000000000000000000000000000042209040209041208041208000000000000000000000000042217039217040216039215041213042213043215042217042217040218039217040216041214043215042217043217041220040220040219040218042217043217042217042218041221000000040220040219041217042217042218042221000000000000000000000000000000000000000000000000000000000000000000000000000000000000000000000000000000000000000000000000000000000000000000000000000000000000000000000000000000000000000000000000000000000000000000000000000000000000000000000000000000000000000000000000000000000000000000000000000000040252000000000000000000000000000000000000000000040255040252000000000000000000000000000000000000000000040255040252000000000000000000000000000000000000000000040255000000000000000000000000000000000000000000000000000000000000000000000000000000000000000000000000000000000000000000042258042278041279041277041276042276042276043277043279)
 (.leaf 42283041283040281041281041280043281043282043283042286041286041285041283042283043283043283042286041298041298040297041294041294043295043296042296041299039299041298040297041295043296042296042299042302040303039301041300041299043300043301043302042303039304040303039301042302043301043302000000000000039304039304040303042302043302000000000000000000039305039304039304042303000000000000000000000000039305039305039304000000000000000000000000000000040308039305039305000000000000000000000000000000040309040308039305000000000000000000000000000000040310040309040308000000000000000000000000000000000000040310040309000000000000000000000000000000000000000000040310000000000000000000000000000000000000000000000000000000000000000000000000000000000000000000000000000000000000000000000000000000000000000000000000000000000000000000000000000000000000000000000000000000000000000000000000000000000000000000000000000000000000000000000000000000000000000000000000000000000000000000000000000000000000000000000000000000000000000000042395040400000000000000000000041397041397041398042399040402000000000000000000040400042399043402042403040402000000000000000000040400043402042403042404041406039406040403000000040402042404043405041406041407039406039406040403041403043405041406041406041410040410039408040406040407043408043408042410041414040414040413040412040411041411042413042414042415040417039416039414042413042415042416041417041418040418040417039416042415042416041417042418040422000000000000000000040420042420042421042422040423000000000000000000040420042421042422042423))))
 (.node 4 (.node 2 (.node 1 (.leaf 40424000000000000000000040422042422042423042424041425000000000000000000040423042423042424042425040426000000000000000000040424042424042425041426000000000000000000000000000000041426042426041429000000000000000000000000000000042426041429041429000000000000000000000000000000041429042431041431000000000000000000000000000000041431042433000000000000000000000000000000000000000000000000000000000000000000000000000000000000000000000000000000000000000000000000000000000000000000000000000000000000000000000000000000000000000000000000000000000000000000000000000000000000000000000000000000000000000000000000000000000000000000000000000000040485000000000000000000041482042482042483043484041487000000000000000000041483042483043484042485041488000000000000000000040485043484042485042488000000000000000000000000000000041489042489042490000000000000000000000000000000042489042490000000000000040495000000000000000000000000000000000000042497039497040495000000000000000000000000000000042498040497039497040495000000000000000000000000041502040502040499040498041498042498042499042500041503039503040502040499041499042499042500042501000000000000000000040505000000042505000000000000000000040507000000000000000000000000000000000000000000040510040507000000000000000000000000000000000000039511040510040507000000000000000000000000000000041511039511040510000000000000000000000000042518039518040518040517041515042515041516043517040518039518039518040518041516041516043517042518040521039522040522040519041519042519042520042521042522039524039522040522041520042520042521042522)
 (.leaf 41525039525039524039522040521042521042522042523041526039525039525039524042522042522042523042526040531040530040529040528040529041529042529041531040535040535039535040535041533042533042534042535041546040546040545040544041542042542042543042544041547040547040546040545041543042543042544042545040548040550040549040548040546042548043548043548041551039551040550040549041547043548043548042551040551040552039551040550040548043548042551042552040554040552039552040552040551042552042553042554040554040553040552039552040552042553042554042555042556039556040553040552040554042554042555043555042556040557039556040553040554042555043555043555041558040558040557039556042556043555043555043557041559040559040558040557042556043555043557042559041566039566040563040562042564042564042565042566041574039572040571040570041570042570042573043574041575040573039572040571041571042573043574042575042579040580040579040578040578043577042579042580042580040581040580040579042579042579042580042581041582040582040581040580042579042580042581043581041583040583040582040581042580042581043581042583041586039585040585040584042583043583043584042586041587041587039585040585042583043584042586042587040591040590040589040588041588043590042591042592041593041592040590040589041589042591042592042593041599039598040598040597040596042597041596042599040599039599039598040598041596041596042599042600041602040602040601039599040599042600042601043602041605041604040604040603042602042603042604042605041609040609040608040607040607042607041608042607040613040612040611040610041610042610042611042612))
 (.node 1 (.leaf 40616040615039614040613041613042613042614042615040616040616040615039614041614042614042615042618041619039618040616040615040616042615042618042619041620040620039618040616040616042618042619042620040624040624040623039622040622042622042623041624041627039627040624039625040624042625042626042627042633040634040631040630041630043631042631042632041635039633040634040631041631042631042632042633042636039636039633040634042633042632042633042634042637039636039636039636042636042634042637043638041639041638039636039636042636042637043638042637041646039645040645041643041642042644042645042646042646040647039645040645042645042645042646042647042649040650040649040648041646042648042649042650041651040651040650040649041647042649042650043651042651040652040651040650042649042650043651042652041654039653040653040652042651042652042653042654040654039654039653040653042653042653042654041654041659040657040656040655041655041655042656042659041660040658040657040656041656042656042659042660041672040672039669040670040669042668042671041672041673040673040672039669040670042671041672042671041676040676040675040674040674042672041675042676040680000000000000039679040679042679042680042681000000000000000000000000040680042681042682041682040683000000000000000000000000041682041682042683040685000000000000000000041682041682042683042686040685000000000000000000040683042683042686042687042686000000000000000000040685042686042687043687041690000000000000000000042686043687043687042688040690000000000000000000041687043687042688042689041693000000000000000000040690042689042690042691)
 (.leaf 41693042695041694042695000000000000000000000000000000042695042696000000000000000000000000000000000000042696000000000000041707000000000000000000041703042703042704042705040706000000000000000000041704042704042705042706040708000000000000000000040706042706042707041709041716000000000000000000041712042712041713042714000000000000000000000000000000042715041718041718000000000000000000000000000000000000042001043002000000000000000000000000000000043002043003000000000000000000000000000000000000000000000000000000000000000000000000000000000000000000000000043028000000000000000000000000000000000000043028043029000000000000000000000000000000043028043029044030041034000000000000000000000000044030044032044032041034040034000000000000042031044032044032044034041036041036040034000000041034044032044034044035041036041037041036040034041034044034044035044035041038040036041037041036041036044035044035044036041038041039040036041037041036044035044036044037042040040039041039040036041038044036044037044039042041040039040039041039041038044037044039043039041052041052041051041050041050042049042049042052041052041053041052041051042049042049042052042052042056041056041055041054042052042053042055044055041059040058041057040056041057042057042057043060041061040062040060040058041059043060042059042062041062040062040062040060041060042059042062042062041065041064041063040062042062044063044064044066041068040067040066041064041065044066044066043068041068041067040067040066042065044066043068044067043069040070041067040067041068043068044067043068)))
 (.node 2 (.node 1 (.leaf 43069040071040070041067041068044067043068044071043072040073040071040071043069044071043072043073042074040074040073040071042070043072043073044073043075040074040074040073043072043073044073043075042077040076040075040074043075043075044075044075042078041076040076040075041076044075044075043078042081000000041080041079041079043079043080044080042082000000000000041080041079043080044080043080042085000000000000000000041083043081043082042084000000000000000000000000000000044086042087042087042094000000000000000000041091042091043091043094041097041097041096041095041095042094042096043097041098000000040098041097041097043097042098043099043100041099041098000000041098043099043100043101042103041103041100041099043100043101043102042102043105041106041103040102041103043102043103043104042107040106041106041103042103043103043104043105041107041106040106041106043105043104043105043106041114041113041112000000042111042112043112042115041114041114041113041112042112043112042115042115042118040118041115041114041114042115043115043116043117040118040118041115042115043115043116043117041120000000000000040118043117043117043118042120041122000000000000000000041120042120043122043123041123000000000000000000041121043122043123043124000000000000000000000000041122043123043124044125000000000000000000000000041123043124044125044125000000000000000000000000000000044125044125042126000000000000000000000000000000042127043129000000000000000000000000000000000000043129000000000000000000000000000000000000000000000000000000000000000000000000000000000000000000000000000000000000)
 (.leaf 41133041132000000000000000000000000000000000000041134041133041132000000000000000000000000000000041135041134041133000000000000000000000000000000041138041135041134000000000000000000000000000000041139041138041135000000000000000000000000000000041140041139041138000000000000000000000000000000041141041140041139000000000000000000000000000000042142041141041140000000000000000000000000000000041143042142041141000000000000000000000000000000041145041144041143000000000000000000000000000000000000041145041144000000000000000000000000000000000000000000041145000000000000000000000000000000000000000000000000000000000000000000000000000000041147000000000000000000000000000000000000000000041148041147000000000000000000000000000000000000041149041148041147000000000000000000000000000000041150041149041148000000000000000000000000000000040152041150041149000000000000000000000000000000000000040152041150000000000000000000000000000000000000000000040152000000000000000000000000000000000000000000000000000000000000000000000000000000000000000000000000000000000000000000000000000000000000000000000000000000000000000000000000000000000000000000000000000000000000000000000000000000000000000000000000000000000000000000000000000000000000000000000000000000000000000000000000000000000000000000000000000000000000000000000000000000041163000000000000000000000000000000000000000000040165041163000000000000000000000000000000000000000000040165041163000000000000000000000000000000000000000000040165000000000000000000000000000000000000000000000000000000000000000000000000))
 (.node 1 (.leaf 43171042178000000041175041174042174042174043175042178000000000000000000041175042175043175042178043179000000000000000000000000042180043180043183000000000000000000000000000000042181043183000000000000000000000000000000000000000000000000000000043188000000041189000000000000000000000000043188043191042193041193041190041189000000043191043192043193042194041194041193041190042190043192043193043194000000000000000000000000000000000000000000000000000000000000000000000000000000000000000000000000000000000000000000000000000000000000000000000000000000000000000000000000000000000000000000000000000000000000000000000000000000000000000000000000000000041208000000000000000000000000000000000000000000041210042209041208000000000000000000000000043215041214041213041212042212000000043213043214042217042217041214041213042213043213043214044216043217042217042217041214043215043214044216044216042221041221041220041217042217043217044219044219000000000000041221041220042218044219044219042222000000000000000000000000000000000000000000000000000000000000000000000000000000000000000000000000000000000000000000000000000000000000000000000000000000000000000000000000000000000000000000000000000000000000000000000000000000000000000000043257041263041263041262041261042261042262042262043263043277042278042276042275042275044276044276044278043280042280042278042278043277044278044279044280)
 (.leaf 43283042283042281041280043281044281044282044283042286042286041285042283043283044283044284043284041287041287042286041285043283044284043284044285042289041289041288041287041287044285042288043289041291041292041291041290041289043290043291044291042293042292041292041291041291043291044291043293042299041299041298041295043296000000000000000000043299042299041299041298042296000000000000000000043301042302041299042299043299000000000000000000043302042302042302041299043300000000000000000000000000000000000000042303000000000000000000000000000000000000000000000000000000000000000000000000000000000000000000000000000000000000000000000000000000000000000000000000000000000000000000000000000000000000000000000000000000000000000000000000000000000000000000000000000000000000000000000000000000000000000000000000000000000000000000000000000000000000000000000000000000000000000000000000000000000000000000000000000000000000000000000000000000000000000000000000000000000000000000000000000000000000000000000000000000000000000000043393000000000000000000000000000000000000043393043394041397041396000000000000000000043394043397043398041397041397041396000000042395043397043398043399041398041400041397041396041397043398043399043400043402040400040400041400041398043400043401044402042403040402040400040400042399043401044402043403042404040402040402040400043402044402043403043404041406041407041406041403043405044405043406044407043408040407041407041406041406043406044407044407043408041409040407041407041406044407044407043409042410041410041409040407043408044407043409044409))))))))
 (.node 64 (.node 32 (.node 16 (.node 8 (.node 4 (.node 2 (.node 1 (.leaf 42411041411041410041409043408043409044409043411042414041414041413040411041411043412042413044413041429000000000000000000041426042426043426043429041429000000000000000000042426043426043429043430042431000000000000000000041429043429043430042430000000000000000000000000041431043430042433043434000000000000000000000000000000043434042435043436000000000000000000000000000000043436000000000000000000000000000000000000000000000000000000000000000000000000000000000000000000000000000000000000000000000000000000000000000000000000000000043448000000000000000000000000000000000000043448000000000000000000000000000000000000043448000000000000000000000000000000000000000000000000000000000000000000000000000000000000000000000000000000000000000000000000000000000000000000000000000000000000000000000000000000000000000000000000000000000000000000000000000000000000000000000000000000000000000000000000000000000000000000000000000000000000000000000000000000000000000000000000000000000000000000000000000000000000000000000000000000000000000000000000000000000000000000043469043470043473000000000000000000000000000000043470043473043474000000000000000000000000000000043474042473043474000000000000000000000000000000042473043474044477000000000000000000000000000000043474044477043478000000000000000000000000000000044477043478000000000000000000000000000000000000043478000000000000000000000000000000000000000000000000000000043479000000000000000000000000000000000000043479043482041481040481000000000000000000043479043482043483043484040485041483041482042482042482043483043484)
 (.leaf 42488041488041487040485043484043484043485043488041489041489041488041487042485043485043488043489000000000000000000000000042490043490042491043494000000000000000000000000000000042491043494043495000000000000000000000000000000043494043495043496000000000000000000000000000000043495043496000000000000000000000000041504042502042503042505043506000000000000000000000000000000043506000000000000000000000000000000000000000000000000000000000000000000000000000000000000000000000000000000043509000000000000000000000000000000000000043509043512000000000000000000000000000000043509043512043513000000000000000000000000000000043512043513044514000000042514000000000000000000043513044514000000041516041516041515041514000000000000043515044516043517042518041516041515042515043515044516043517041526041527041526041525042523042524043526042527041529040529040528040528041528043526043527043528041531040531040529040529041529043528043529043532041531041531040531040529042529043529043532042532042538041536040535041534042534043534043535043536041537041537041536040535042535043535043536043537042548040546041547041546042544044544043545043546043548041547040546041547042545043545043546043547042551041551040548041547043548043547043548044551042552040551041551040548043548043548044551043550042559041559041558042556043555043557044558043557042560041560041559041558043557044558043557043560041563040562041562041561043561043561043562044563042565041565042564040562041563044563043564043565042573041571041570041569042569042570042570043573043574041574041571041570042570042570043573043574))
 (.node 1 (.leaf 42576041576041575041574043574043574043575043576042580042579042579040578043577043578043579043580043583042583041583041582043581043582043583043584042586041586042583042583043583043584043585043586042587041587041586042583043584043585043586043587043590041588040588041588041588043588043589043590042591041589041588040588043589043589043590043591042592040591041589041588043590043590043591044592042600040599041599041596041596043598043599043600041608041608040607041606041605044606043607042607042618040616040616041614042614043614043615043618042619041619040616040616042615043615043618044619042626041626040624040624041624043624042625043626043631041630040629040629042628042629043629043630042637042636042636041635042633042633043634043635042640041640041639042637043638043638044639043638042641041641041640041639042637044639043638043641041655041655041654040654041654043653043654042656042659041659041656041655041655042656043658043659042660041660041659041656042656043658043659043660043665041666041665041664041663043664043665043666042667041667041666041665042663043665043666043667042668041668041667041666043665043666043667042667042671040670040669041669041668042668043668043669041672041672040670040669042668043668043669042671041675041675040674041673042671043671043674043675042676041676041675040674042672043674043675042676042677041677041676041675041675043675042676043677042686040685040683041682041682042682043683043684042687040685040685040683042683043683043684043685041693000000041693041692042690043690044692044692042695041693000000041693042691044692044692043693)
 (.leaf 41694041696041693000000041693044692043693043696000000000000000000000000042695042696043696043699000000000000000000000000042696043696043699043700000000000000000000000000000000043699043700042700041709041709040708041707042707042707042708043709041718000000000000041716042714043714043717043718041718000000000000000000042715043717043718043719000000000000000000000000041718043718043719000000000000000000000000000000041718043719000000042001043002000000000000000000000000000000044001044002043003000000000000000000042001044001044002044003000000000000000000000000000000043004044006044007000000000000000000000000000000000000000000000000044030000000000000000000043028000000000000000000044032042031000000000000043029000000000000044031044032041034042031000000044030000000044031044032044034041034041034042031044032044031044032045034044035041036041034041034044032044032045034044034044035041036041036041034044034045034044034044035044036041038041036041036044035044034044035044036044037041038041038041036044035044035044036044037044039042040041038041038044036044036044037044038044044042045042044042043043041043042043042044043042047042047042046042045044044044043044044044045042047042048042047042046043044044044044045044046042049041050041049042048042047044046044047044048042049042049041050041049043047044047044048043051042052041052042049041050042049044048043051045052042053042052041052041052042052045052045052044054042055042055042052041052042052045052044054044055044055042056042055042052042053044054044055045055043057041056042056042055042055044055045055045056)))
 (.node 2 (.node 1 (.leaf 42057041057041056042056044055045055045056045058043060041059041058041057042057045058045058045058042059041060041059041058042057045058045058045059042062041062041061041060042059045059044060044063044063042062041062041061042062044060044063045062044064042063042062041062042062044063045062045063044066041065042063042062044063045062045063044066044066042065041065042063044064045063044066044067043068041068042065041065044066044066044067045066044067041068041068042065044066044067045066045069043072042070043069043069043068045069044071045071043073043072042070043069044071044071045071044071044075041076043075042074044073044072045074044074043078042078042077041076044075044074044075045077043079041079042078042077044075044075045077045078042084042085041083041083043081044081044082044083044086000000042085041083043082044082044083044086042087000000000000042085042084044083044086045086042087000000000000000000044086044086045086044088043089000000000000000000042087045086044088044089042088000000000000000000042087044088044089043089043094042094042093041091042091043091044091044092042094041095042094042093043091044091044092044093043097041097041095041095042094044093044096045096042098041097041097041095042096044096045096044098043100042098041098041097042098044098044099044100042112042110042109042108043108044108043109044110042112042111042110042109043109043109044110044111042115041114041114042112043112043113044113044114042120041120042118043117043117044117045118045119043122041121041120042118043118045118045119044122043123041122041121041120042120045119044122043123)
 (.leaf 42126000000000000000000044125044125044126044127042127000000000000000000044125044126044127044128043129000000000000000000042126044127044128044129000000000000000000000000042127044128044129000000000000000000000000000000000000000000000000000000000000000000000000000000000000000000000000000000000000000000000000000000000000000000000000000000000000000000000000000000000000000000000000000000000000000000000000000000000000000000000000000000000000000000000000000000000000000000000000000000000000000000000000000000000000000000000000000000000000000000000000000000000000000000000000000000000000000000000000000000000000000000000000044144000000000000000000000000000000000000044144043146000000000000000000000000000000043146044146043148000000000000000000000000000000043149044151043151000000000000000000000000000000043152000000000000000000000000000000000000000000000000000000000000000000000000000000000000000000000000043163044164000000000000000000000000000000043163044164044167000000000000000000000000000000044164044167000000000000000000000000000000000000044167000000000000000000000000000000000000000000000000000000000000000000000000000000000000000000000000000000043170043174042172000000000000000000043171044173043174043175042173042172000000043171044173043174044175042178042178042175042174042174044176044177043178043179000000042178042175043175044177043178043179000000000000042181042180043180044180044183000000000000000000000000000000000000000000000000000000000000000000000000000000000000000000000000000000043191000000000000000000000000044187044190043191))
 (.node 1 (.leaf 43192042190000000000000043188044190043191045191000000000000000000042196000000044196000000000000000000000000000000000000000000000000000000000000000000000000000000000000000000000000000000000000000000000000000000000000000000000000044205045207000000000000000000000000000000044205045207044209000000000000000000000000000000045207044209000000000000000000000000000000000000044209000000000000000000000000000000000000000000000000000000000000000000042211000000000000000000000000000000000000000000042212042211000000000000000000000000000000044216043217042217043215043214044214044215044216044219042218042217043217044216044216045218045218044219042221042218042217043217045218045218044219042222000000042221042218044219045218044219045221042223000000000000042221044219044219045221044221043224000000000000000000042222045221044221044222000000000000000000000000042223044221044222044223000000000000000000000000000000044223044226000000000000000000000000000000000000044226000000000000000000000000000000000000000000000000000000000000000000000000000000000000000000000000000000000000000000000000000000000000000000000000000000000000000000000000000000000000000000000000000000000000044259042258000000000000000000000000000000044258044260042259042258000000043257000000044258044259044261042260042259042258044259044258044259044260042262042261042260042259044260044259044260044261042262042262042261042260044261044260044261044262042266042265042264041263043263044263044264044265042266042266042265042264043264044264044265044266044276042275042274042273043273044273044274045277)
 (.leaf 44276042276042275042274043274044274045277045277044279043279043277042276044276045277045278045279044285041287042286043283044284045284044284044285042288042288041287042286043284044284044285044288043289042289042288041287044285044285044288044289043290041289042289042288042288044288044289044290043294042294042293041291044291045291045292000000000000042299042296043296000000000000000000000000000000043299042299042296000000000000000000000000000000000000000000043302000000000000000000000000000000000000000000000000000000000000000000000000000000000000000000000000000000000000000000000000000000000000000000000000000000000000000000000000000000000000000000000000000000000000000000000000000000000000000000000000000000000000000000000000000000000000000000000000000000000000000000000000000000000000000000000000000000000000000000044390000000000000000000000000000000000000044390043392043397042395000000000000043393044395044396045397043398041397042395000000043394044396045397044398043409043408043408041406044407044407045407044407043412041411042411042410044409045409045409044412042417041417042416042415043413045415043414045416043418042418041417042416043414043414045416045416043419042419042418041417042417045416045416044417042423042424042423042422042422044422044423044424043425042425042424042423042422044423044424045424044426041426042425042424042423044424045424045424043429041429042426041426042426044425044426045428043430041429041429042426043426044426045428044428042433042433041431042431042430043430044430045433043434000000042433041431043430044430045433044434))))
 (.node 4 (.node 2 (.node 1 (.leaf 42435000000000000042433042433045433044434044435000000000000000000000000042435044435044436044437000000000000000000000000000000044437044438043439000000000000000000000000000000044438043439044440000000000000000000000000000000000000000000000000000000000000000000000000000000000000044450000000000000000000000000000000043448044450000000000000000000000000000000000000000000000000000000000000000000000000000000000000000000000000000000000000000000000000000000000000000000000000000000000000000000000000000000000000000000043460044460045463000000000000000000000000000000044460045463043464000000000000000000000000000000045463043464044465000000000000000000000000000000044465044466043467000000000000000000000000000000044466043467043467000000000000000000000000000000043467044467043469043473000000000000000000043469045469044470043472044477000000000000000000042473044475043474045476043478000000000000000000043474043474045476045476000000000000000000000000044477045476045476044477043482000000000000000000000000043479044479044480043483041481000000000000043479044479044480044481043488042488042485043484043484043485045486044488043489041489042488042485043485045486044488045487042491000000042490042489042491044489044490044493043494000000000000042490043490044490044493044494043495000000000000000000042491044493044494044495043502042500042499042498043498045498044499045502043503042501042500042499043499044499045502045502043506000000042505042502042503045504044505000000000000000000000000042505042505044505000000000000000000000000000000000000000000000000000000000000)
 (.leaf 43512000000000000000000000000000000044509043512043513000000000000000000043509044509043512044513000000000000000000000000044514044514000000000000044516041516042515000000000000000000000000000000042524042523042522042521042521044521044524045524043526042526042523042522043522044524045524044526042527041526042526042523042524045524044526043526043532041531042529041529043528044528044529044532042532041531041531042529043529044529044532043532044544042544042543042542043542045542044543044544044551042551043548043548043547044549043548045550044552042553042552042551044551045550045552044553044553042554042553042552043550045552044553045553043555042555042554042553044552044553045553044553043556043555042555042554044553045553044553044556043560042560042559043557044558044558045559045559043561043561042560042559043557045559045559045561043565042565042564041563044563044563044564044565043569042567041567042567042566044565044568043569043570042568042567041567043566044568043569045569043573042573042570042569042570044571044572044573043574043574042573042570042570044572044573044574043594041594042593042592044592044592044593043594043595042595041594042593044592044593043594045595043598041596042597042596042594044596044597044598043599042599041596042597043595044597044598044599043603042603043602042601044601044601044602044603044611042611042610042609043609044609044610044611043618042618042615042614043614044614044615044618044619042619042618042615043615044615044618044619043621042621042620042619044619044619044620044621))
 (.node 1 (.leaf 43624041624042623042622042622044622043623044624044629041628042628042627042627044627044628044629042633042632042631043631043630044630044631044632042633042633042632042631044632044631044632044633044639042637043638042637043635043636044638044639043641042641042640042637044639044639044640044641044642042642042641042640043638044640044641044642043644042644042643042642044642044642044643044644043645042645042644042643044642044643044644044645042656041655042654041654043653043653044654043657043658042656041655042654043654044654043657044658042671041672042671042668043668044670044671044672043674042672042671041672042671044672044673043674043675041675042672042671043671044673043674043674042677042678042677042676042676043675044677043677042680042680042679042678042677043677044677045679043681042681042680042679043677044677045679043681042681042682042681042680042680045679043681044682044692042691042690042689043689044689044690044691044692041693042691042690043690044690044691044692043696041694042695041693044692044692044693044694042696042695041694042695043693044693044694043696043699000000042696042695042696043696043696044699043700000000000000042696043696043696044699043700044707042706042705042704043704044706045707045707042707042707042706042705043705045707045707044707042708041709042707042706044707045707044707044708043717042715042714041713042713043713044716044717043718041718042715042714043714044716044717044718044002043002042001000000000000000000045001045002044007000000000000000000043004045005044006045007000000043029043028000000000000000000000000000000)
 (.leaf 45034044034044032044032044031000000000000000000043040043040043039044039044038046038046039045040043042043041043040043039045040046039045040045041043042043042043041043040043040045040045041045042043051042049042049043047044047046047046049046050045052042052042049042049044048046049046050046050045052042052042052042049043051046050046050045053044054042053042052042052045052046050045053046052044055042055042053042052045052045053046052045053045058042057043057044055045055045056046056046056045058042057042057043057045056046056046056045057045058043060042057042057045058046056045057045058045059042059043060042057045058045057045058046059044063042062042062042059045059046059045060045063045062044063042062042062044060045060045063045064044067044066044066044064045063045065045066046066045069043068044067043068045066046068046068046068044071044071043068044067045069046068046068046069045071043072044071043068045069046068046069046071045077043078044075044075044074045074045075045076045078043079043078044075044075045075045076045077044080043080043079043078045077045076045077045078045079044080043080043079045078045077045078045079044086044086042084043082044082046084044083045084045086042087044086042084044083044083045084045085044089043089042087042087045086045085045086045089044096042096042094043094044092045092045093045094045096043097042096042094044093045093045094045095044099043099042098043097045096045095045096045097043101042102043102043101043100044100046101046103044107043105043104043103044103044103044104045107043107043106043105043104044104044104045107045108)))
 (.node 2 (.node 1 (.leaf 43109043109043108043107044107044108044108045111043113043112042112042112044110044111045111045112045118043118043117043116044116046117046118046119045119042120043118043117044117046118046119046120044122043122042120043118045118046119046120046120043123043123043122042120045119046120046120045121044125044125043124043123043123045121046122045123044126044125044125043124043124046122045123045126000000000000000000000000000000045129044130044132000000000000000000000000000000044133045135044136000000000000000000000000000000045135044136044136000000000000000000000000000000044136045138045139000000000000000000000000000000045138045139045140000000000000000000000000000000045139045140045141000000000000000000000000000000045140045141045142000000000000000000000000000000045141045142000000000000000000000000000000000000045142000000000000000000000000000000000000000000000000000000000000043146000000000000000000000000000000000000045145043148000000000000000000043146045145046147044148000000000000000000000000000000044159045159044161000000000000000000000000044164044165044167000000000000000000000000000000000000000000000000000000043170000000000000000000000000000000000000045169043171000000000000000000000000000000045169045170044173043171000000000000043170045169045170045171043174043174043171000000043171045170045171045172044176042174043175043174043174045172045173046174044180000000043179042178043178045176045177044179000000000000043183043180044180044181045183045184000000000000000000000000000000000000000000045186044190043188000000000000000000045186045189046190)
 (.leaf 43191043191043188000000044187045189046190046190045192043193043192043191043191046190045190045191043193043194043193043192045191045190045191046193044195043195043194043193045192045191046193045195044196000000043195043194043193046193045195045196045207000000000000000000000000000000000000000000044209000000000000000000044205000000000000000000000000000000000000000000045207000000000000000000000000000000000000000000000000000000000000000000000000000000000000000000000000000000000000000000000000000000000000000000000000000000000000000000045218043217044216044216044215045215046218046218045218044219043217044216044216046218046218045218045221042222044219044219045218045218046220046221044226000000000000043224044222045222045225046225000000000000000000000000044223045225046225045225000000000000000000000000000000044227044229045230000000000000000000000000000000045230000000000000000000000000000000000000000000000000000000000000000000000000000000000000000000000000000000000000000000000000000000000000000000000000000000000000000000000000000000000000000000000000000000000000000000000000000000000000000000000000000000000000000000000000000000000000000000000000000000000000000000043257000000000000000000000000000000000000043270043270043269043268043268044268044269044271045277044276043274043273044273045273046275045277045278044278044276044276045277045277046278046278044288042288044285043284044284046285046285046287044289043289042288044285044285046285046287046288000000043294043293044291045291046291000000000000000000000000043294043293045292000000000000000000))
 (.node 1 (.leaf 43294000000000000000000000000000000000000000000000000000000000000000000000000000000000000000000000000000000000000000000000000000000000000000000000000000000000000000000000000000000000000000000000000000000000000000000045389043392000000000000000000000000045389045390044393044394000000000000000000044390045390044393045394044399043399043398043397045397046397045398045399045407044407044407043406045405045406045407046407045409044409043409044407045407046407046407045410044412043412043411044409045409045410046410046411045413042413043412043411045409046410046411046412043414043414043413044413045413045414045415046414045416042417043414043413045415045415046414045415045416043418042417043414043414046414045415045416043419043420043419043418045416045416045417045418043420043421043420043419044417045417045418046420044422042422043421043420043419045418046420044422044423042422042422043421043420046420044422045423045428043429043426042426044425045425045428046428043430042430043430043429045428046428045430045431045433042433043430042430043430045431046431045433044434043434042433043430044430046431045433045434044435042435043434042433045433045433045434045435000000000000000000000000043439045439045440045441000000000000000000000000000000045441045442000000000000000000000000000000000000045442000000000000000000000000000000000000000000000000000000000000044450043448000000000000000000000000000000000000000000000000043448000000000000000000000000000000000000000000000000000000000000000000000000000000000000000000000000000000000000000000000000000000)
 (.leaf 45455000000000000000000000000000000000000045455045456000000000000000000000000000000045455045456045459043460000000000000000000000000045459044458045461045463000000000000000000043460045461046462045463043464000000000000000000044460046462045463045464044465000000000000000000045463045463045464044464043469000000000000000000043467044466046467045468045469043469000000000000044467046467045468046471043472043473043470043469045469046471046471045471044474043474043473043470044470046471045471046473044475042473043474043473043472045471046473045473045476043478044477043474043474045474045475045476043479000000000000043478045476045476045477046479045484043483042482043483044481046482046482045483043485043484043483042482044482046482045483046485045486043485043484043483045484045483046485046485044488043488043485043484043485046485046485045486045487043489043488043485045486046485045486045487044493042491043490042491044489045489046491046493044494043494042491043490044490046491046493045494043497000000000000043496045496046495046497045496045497043497000000000000043497046497045496045497045498043498043497000000043497045496045497046498045502043502043499043498045498046498045499046501045502043503043502043499044499045499046501045503045504042503043503043502045502046501045503000000044505042505042503043503045502045503000000000000000000043506042505042503045504000000000000000000000000000000000000043506000000000000000000000000043512043512043509000000000000045510045511045512)))))
 (.node 8 (.node 4 (.node 2 (.node 1 (.leaf 44513043513043512043509044509045511045512045513044514044514043513043512043512045512045513045514043518043518043517044516000000044517045517045518043519043519043518043517044517045517045518045519043521043520043519043518043518045518045519045520044524043522042521043520043521045520045521045522045524042524043522042521044521045521045522045523043526042527043526042524045524045523045524045525044532043532043529043528044528045528046529045530043532042532043532043529044529046529045530045533044535043533043532042532043532045533044532045533043535043534043533043532044532044532045533045534045542043542043541043540044540045540045541046542045546043546043545044544044544045544045545046547044549043547043546043545044545045545046547045549043548043548043547043546045546046547045549046549045552043550044551043548043548046549044549045550044556043556043555044553045553045552046555045556044557043557043556043555044553046555045556046556045561043561043560043557045559046559045560045561044562043562043561043560045559045560045561045562044563044563043562043561045561045561045562044563044568043566042566043566043565045564045565045568043569043569043566042566044565045565045568044568044571042570043570043569043569044568045568045569044572042570042570043570045569045568045569045572044582043582043581043580043579045580045581044581044587043587043586043585043584045585045586044586044591043591043590043589043589045589045590045591044596042594043595043594043594045594045595044596044597043595042594043595045595045595044596045597044618043618043615043614044614045614045615045618)
 (.leaf 44619044619043618043615044615045615045618045619043625042625043624043623043623045623045624044625043636043635043634042633044633044634045634045635044638043638043635043634044634045634045635045636044639044639043638043635043636045635045636045637043657042656043654043653043653044653045654045657044658043658042656043654044654045654045657045658044659043659043658042656043657045657045658045659043662043662043661043660045660045660045661045662043664043664043663043662043662045662045663045664043664043665043664043663045662045663045664045665044667043667043666043665043664045665045666045667044668042667043667043666044664045666045667044668043675042676043675043674043674045672045673045674044677043677042676043675043674045673045674045677043677042677043677042676043675045674045677044677045679042680043677042677043677044677045677045678043681043681042680043677044677045677045678045679044682042681043681042680045679045678045679045680043682043681042681043681043681045679045680045683043686043686043685043684044684045684045685045688043688043687043686043685044685045685045688046688043688044689043687043686043686045688046688046688043696043696042696043696044694044695045695045696044699043699043696042696043696045695045696045697043700043700043699043696043696045696045697045698043701042701042700043700043700045698045699045700043704043703043702042701044701044702045704045705044706043704043703043702043703045704045705045706045707043705043704043703043704045705045706045707045712043712043711043710044710046710045711045712043713042713043712043711044711045711045712046714))
 (.node 1 (.leaf 44716043714042713043712045712045712046714046716044717043717043714042713043713046714046716046716045002044002044001000000000000000000046001046002045005043004044004044003044002045002047002045004000000000000000000000000000000046010000000000000000000000000000000000000000000000000000000045012000000044032044031000000000000000000000000000000000000045034044032044031000000000000000000000000045037044035044034045034000000000000000000000000045038044036044035044034045034000000000000046036046039045040044038044037046038046037046038047040046046044045044044044043045043045044045044046045046047044046044045044044045044045044046045046046046047044047044046044045046046046045046046046047046049044048044047044046046047046046046047046048046050043051044048044047046047046047046048046049046050045052043051044048046049046048046049046050045053045052045052043051046050046049046050046053045056045055044055044054046052046054047053046054045063044063044060045059046059046061046062046063046068045069045066044067046066046065046066046067046068045069045069045066046068046066046067046068046071045071044071045069046068046068046069046070046072044072044071045071046071046070046071046072044081044080045079044080045078046078046081047082045083044081044080045079045079046081047082046083046084044082044081044080044081047082046083046084045089044089044088045086045085045085045086046089045090043089044089044088045086045086046089046090044092044091043091043090044090045090046090046093046101043101043100044100045098045099046099046100046103043101043101043100044100046099046100046101)
 (.leaf 46103044102043101043101046101046100046101047103044103044103044102043101046103046101047103046103044104044104044103044102046103047103046103046104045107044107044104044103044103046103046104046105045108043107044107044104044104046104046105045108045111043109044108044107044108047108046110045110044115044114044113043113045112047113045113047115046117044115044114044113045113045113047115047117046117044116044115044114044115047115047117047118046118044117044116044115046117047117047118047118046120044122045119045118046119047118046119046120046122043124043123044122046120046120046121047123045126044126044125043124046122047123047123046124045127044127044126044125045123047123046124047125044130000000000000000000045128046128046129047131044132000000000000000000045129046129047131046133044133000000000000000000044130047131046133045134045135000000000000000000044132046133045134047134045138000000000000000000044136046136046137046138045139000000000000000000044136046137046138046139000000000000000000000000000000046143000000000000000000044144000000000000000000000000000000000000044148043148044146043146045145046145045146046147044149043149043148044146046147045146046147046150044150044151043149043148044148046147046150045151044151043151044151043149044149046150045151045151044155000000000000000000044153045153047154045155044162000000000000000000045159045160045160045163044163000000000000000000044161045160045163045164000000000000000000044167044167047167046168045168046174044176044175043174045172045173045173046174044176044177044176044175045173045173046174046175)))
 (.node 2 (.node 1 (.leaf 44179044180043179043178045176046176046177045179044181044180043181044180044179045179045179046182045183044183044180043181045179045179046182046183045184000000044183044180044181046182046183047184045189044187000000000000000000047187045186000000046190044190044187000000045186045186000000000000045195044195043193045192045191000000046194046195045196044196044195043193046193046194046195000000000000044205000000000000000000000000000000000000000000045207044205000000000000000000000000000000000000000000044209045207000000000000000000000000000000000000000000044209000000000000000000000000000000044214000000000000000000000000046213046214046218044216044215044214000000046214046215046216046218045218044216044215045215046215046216046217046220044219045218045218046218046217046218046219046221045221044219045218045218046218046219046220045225044223044222044221046221046221047224047224046225044226044223044222045222047224047224047226044227000000000000044226046225047226046227047227044229000000000000000000045225046227047227046227045230000000000000000000044227047227046227047229000000000000000000000000044229046227047229045230000000000000000000000000000000045230046232000000000000000000000000000000000000046232000000000000000000000000000000000000000000000000000000000000000000000000000000000000000000000000000000000000000000000000000000000000000000000000000000000000000000000000000000000000000000000000000000000000000000000000000000000000000000000000000000000000000000000000000000000000000000000000000000000000000000000000000000000000000000000000000000000000)
 (.leaf 46261044260044259044258045258045259045259046260044271043272043270043270044269045269045270045272046275044274044273044272045272046274047275046276045277045277044274044273045273047275046276047276046278045277045277044274046275046276047276046278046283045283045283045281046281047282047283047283046285044285044284045284046284047284047285047286046287044288044285044284046285047285047286047287046288044289044288044285046285047286047287047288046289044290044289044288046287047287047288047289045291044291044290044289046288047288047289047290046291045291044291044290046289047289047290000000000000000000000000045292000000000000000000000000000000000000000000000000000000000000000000000000000000000000000000000000000000000000000000046387000000000000000000000000000000000000046387047388044393043392044390000000045389045390046390047393045394044394043392044390045390046390047393046394045395044395044394043392044393047393046394046395045398044398045397044396046396047396046397046398046402045402044401044400046400046400047401046402045410045409044407045407046407047407046407046408046412045413044412045409046410046411047411046411045414045413045413044412046411047411046411047412046420043420043419044417045417045417046420046421044422044422043420043419045418046420046421046422045423044423044422043420046420046421046422046423045424044424044423044422044422046422046423046424045428044426044425045424000000000000000000000000046428045428044426044425045425000000000000000000045431043430044428045428046428000000000000046429))
 (.node 1 (.leaf 45434044434045433044430046431046432047433046432000000000000000000000000000000000000000000000000000000044450000000000000000000000000000000000000000000000000044450000000000000000000000000045451000000000000000000044450000000000000045451000000045459000000000000000000045455046455046458046459044458000000000000000000045456046458046459045460045464043464045463044460046462046462046463046464044466043467044466044465044464045464046464046465044466043467043467044466045464046464046465046466046467044467043467043467044466046465046466047469046471044470045469043469045468046470046471046472046473044474043472044470046471046472047472047474046479043479044477045476045476046478047477046478046479044479043479044477045477047477046478047480046482044481044480044479046479047480047481047481046482044482044481044480045480047481047481047482046485045486043485045484045483046483046484047485046491044490044489045489045488046490046491047492046493044493044490044489045489046491047492046491045494044494044493044490046491047492046491046494045495044495044494044493046493046491046494046495046501045502044499045498046498000000000000000000045503045502045502044499045499000000000000000000000000000000000000044505000000000000000000000000045510000000000000000000000000000000046507047509045511044509000000000000000000046507047509046511044517000000000000000000044515045515046515046516044527044526043526044526045524046524046527046528044527043527044526043526045525046527046528047527046529044529044528043527044527047527046528047529045533043532044532044529046529047529046532045533)
 (.leaf 44532044532043532044532045530046532045533046532046536044536044535043535045534047534046535046536045549044549045546044545045545046545046548047548046549043548044549045546046547046548047548046550045556044556044553045553045552047553046555046556046556044557044556044553046555046555046556046557046559045559044558044557046556046557047558047559044563044565044564044563044563047563046562045564045568044568044565043565045564046566046567045567045573044573044572044571045569045570047570046573045584044584044583044582044581046580046581046584045585043584044584044583045581046581046584046585045589043589044588044587044586046587046588047588045598044598044597044596044596047596046597046598046602044602044601044600044600046600047601047601045603044603044602044601046600047601047601047601045604044604044603044602046602047601047601046604045618044618044615044614045614046614046615046618045619044619044618044615045615046615046618046619045624044624043623044622044621045621046623045624045629044629044628044627044626046627046628045628044640044640044639044638045636046636046637046638045641044641044640044639045637046637046638046641044641044642044641044640044640046638046641046642045644044644044643044642044641046642046643045643044647044648044647043646044646045645046645046646044649044649044648044647044646046645046646046647044650043650044649044648044647046646046647045650044651043651043650044649044649046647045650045651044653043653043653043652044652046653046654046655045657043657044654043653044653046655046656046657045658044658043657044654045654046656046657046658))))
 (.node 4 (.node 2 (.node 1 (.leaf 45670044670044669044668044668046666046667046670044670044671044670044669044669046667046670045670045677044677043675043674045673045673046674046675044677043677044677043675045674046674046675046676045683043682044682043681045679046679045680047681045684043682043682044682045680045680047681046684045688043686044685044684045684045684046685046686046688043688043686044685045685046685046686046687044691044690044689043688046688046688046689046690046691044691044690044689045689046689046690046691045694044692044691044690044691046690046691046692045695044693044692044691046691046691046692046693044702044701043701043700045699047700047700046701045704043703044701043701045700047700046701046702045705043704043703044701044702046701046702046705046710044710044709044708045708046708046709047711046714043713045712044711045711046711046712046713046716044716043713045712045712046712046713046714046716044717044716043713046714046713046714046717045718044718044717044716046716046714046717046718046718044719044718044717046716046717046718046719045001044001000000044719046718046719000000046001046002045002045001000000000000047718000000000000045004045005045002044002045002000000047002047003045006044006045005045002047002047002047003047004045007045007044006045005045004047003047004047007046008045008045007044006045006047004047007048007045009044008045008045007045007047007048007048008000000000000000000044008045009048008046010047011045012000000000000000000000000047011000000000000000000000000000000000000000000000000000000047012000000000000000000000000045012000000047012048014)
 (.leaf 47012048014047016000000000000000000000000000000048014047016046017000000000000000000000000000000047016046017047018000000000000000000000000000000000000000000000000000000000000000000000000000000000000000000000000000000045034000000000000000000000000000000000000000000045037045034000000000000000000000000000000047040045040046039046038046038000000047039047040047041045041045040046039047040047039047040047041045044045043045042045041047041047041047042047043045044045044045043045042046042047042047043047046046053045053046050046050046049047049048051047051046062045060046059045058046058048060048060047060047065045066045065045064047064047062047063047064046081045079045078045077046077047077047080046081047082044081045079045078046078047080046081047082046084046084045083044081047082047082046083046083045085045085045084044083045084047083047084046086046089045089045086045085045085046086047086048088046090045090045089045086045086047086048088047090045092045092044092044090046090046091046091046093045095045094045093045092045092046093046093047094047097045095045094045093046093046093047094047097046098045096045095045094045095047094047097047098046099045097045096045095047097047097047098046099047103046103046103046101046100047102046101047102045108045108045107044104046104047104047105047106047108044108045108045107046105047105047106047107046110044108044108045108045108047106047107047110045110045111044108044108047108047107047110047111047112045111044111045111045110047111047112047113047113045112045111044111045111047112047113047114))
 (.node 1 (.leaf 45113045113045112045111047112047113047114047115047115044115045113045112047113047114047115047116047117046117044115045113045113047115047116047117047118046117046117044115047115047116047117047118047123045123046122045121046121047121047122047123047125045127045126045123047123047123047124048125046133044132044130045129046129046130046130047131045134044133044132044130047131046130047131047132046136044136045135044133045134047132047133047134046137044136044136045135047134047133047134047137045146046147045145000000000000000000047145047148046150044149044148046147045146047148047149047150045151044150044149044148046147047149047150046150045152044152044151044150045151046150046150046152047154044154044153044152045152046152046152047155045155044155044154044153045153046152047155046155045157044157044156044155045155046155046155048158045158044158044157044156045156046155048158047159045159044159044158044157045157048158047159048159045160045159044159044158045158047159048159048161045160044161045159044159045159048159048161048162045164044163044162044161045160048162046161046163045166044165045165044163045164046163047163047164047167044167044165045165045164047163047164047167046168000000044167044165045166047164047167047168045168000000000000044167047167047167047168046168045171045169000000000000045168046168046168047169045171045170045169000000045169046168047169048171046173045171045170045169045171047169048171046172045179044179045177045176046176046176047179048180045179045179044179045177046177047179048180048180046182044181045179044179045179048180048180048181)
 (.leaf 46183045183044181045179045179048180048181047181046186000000045185045184047184047184047185047186047187000000000000045185045185047185047186048187000000045189045186000000047187048187000000000000000000046190045189045186045186000000000000000000000000046190046190045189000000000000000000000000000000045191045190046190000000000000000000000000046194046193045191045190000000000000000000000000000000000000045197045196000000000000000000000000047224045222046221046221046220047220047223000000047224045225045222046221046221047223000000000000047226046225045225045222047224000000000000000000047227044227045225046225047226000000000000000000047229045230044229044227047227000000000000000000045230000000045230044229046227000000000000000000046232000000000000045230047229000000000000047230000000000000000000000000045230000000047230047231000000000000000000000000000000047231047234000000000000000000000000000000000000047234000000000000000000000000000000000000000000000000000000000000000000000000000000000000000000000000000000000000000000000000000000000000000000000000000000000000000000000000000000000000000000000000000000000000000000000000000000000000000000000000000000000000000000000000000000000000000000000000000000047254000000000000000000000000000000000000047254048256000000000000000000000000000000047254048256046257045259045258000000000000000000046257048258048259045259046260045258000000000000048258048259048260046274045272044271044271045270046270046271047274047275045273045272044271045272046271047274047275046279046278046278045277047276048277048277048278)))
 (.node 2 (.node 1 (.leaf 47282046281046279046279047279048279000000000000047283046283046283046281047282000000000000000000047287046287046285046285047285000000000000000000000000046291045291046289047289000000000000000000000000000000000000046291000000000000000000000000000000000000000000000000000000000000000000000000000000000000000000000000000000000000000000047386047388000000000000000000000000047386047387047388045390045389000000000000046387047387047388047389047393044393045390045389045390047389047392048393046394045394044393045390046390047392048393047394046395045395045394044393047393048393047394047395046403045403046402045401047401047401047402048403047407046407045407045406047405048406048407048408046411046410045410046407046407047407048409047409047414045415045414046412046411046411047412047413045417045416045415046414047414046415046415047418045417045417045416045415046415046415047418047419046420045418045417045416045417047418047419047420046421046420045418045417045417047419047420047421000000045428045425000000000000047426047427000000000000046428045428045425000000047427000000000000046432046431045431045430000000000000000000000000046436045436045435045434046432000000000000000000047437045437045436045435046433000000000000000000046439045439045438045437047437000000000000000000045440045440045439045438047437000000000000000000000000045442045441045440045440000000000000000000000000000000000000045442000000000000000000000000000000000000000000000000000000000000000000000000000000000000000000000000000000000000000000046449000000000000000000000000000000046449048449046451)
 (.leaf 47453046452047453000000000000000000000000000000046452047453047454046458045456045455000000000000047454046455047456046459045459045456045455046455046455047456048459046462046462045461044458045460047458047461048462046470045468046467044466046466047466047467047470046471046471045468046467047469047467047470048469045475045474045473046473047474047472048474047474045475045475045474045473046473048474047474048475046478045476045475045474045475047474048475047476047477045477045476045475045475048475047476047477047481045480046479046479046478046478047479047480047481046482045480046479047480047479047480047481045486045486046485046485046484047484048487048487046490045488045487045486045486048487048487047490046491045489045488045487046487048487047490047491046494045494046493046491047492047492046493047492000000045499046498045497000000046498047500000000000000046501045499046498000000047500000000000000000000000000045503046501000000000000000000000000000000000000000000045503000000000000000000000000000000000000000000000000000000000000047504047505047509045510000000000000000000046506047507047508046511045511045510000000046507047507047508047509046512045512045511045510047509047508047509046511045519045517044517045517046515046515047516047517046520045518045517044517046516047516047517047520045521045519045518045517045519047517047520047521046523045521045520045519045521047521047522046523046527045525045524045523046523046524047524047525046528044527045525045524046524047524047525047528046532045530046529045528046528047530047531048532))
 (.node 1 (.leaf 45533045533045530046529047529047531048532047531047534045534045533044532046532046533046533047534045539045537046536045535046535047535048537047537047539045538045537046536046536048537047537047538045539045539045538045537045539047537047538047539046542045540045539045538047539047538047539047540047541045541045540045539045539047539047540048541047544045544045543046542046542047542048545048545046548046547045545045544047544048545047545047548045551045551045550044549047550048551047552048552047553045552045551045550046550047552048552047554046555046555045552045551045551048552047554047555046556045556046555045552047553047554047555048556046560045560046559045558047558048558047559048559045564044563045564044563047563047561047562047565046566045564044563045564046562047562047565047566046567045565045564044563045564047565047566047567045570045569045568044568046567046568047568048570047570045572045569045568045570047568048570048571046573045573045572045569045570048570048571048572045573045574045573045572047570048571048572047572045575045576045575045574045573047572047575048575047577045578045577045576045575048575048576047578046579045579045578045577046575048576047578048578045579045580045579045578047577047578048578046580046584045584045581044581046580046580047581047584046585045585045584045581046581047581047584047585046588045588044586045586045586047586047587047588046591045591045590045589047588047589048589047591046598045598045597044596047596047596047597047598047601046600044600045599047599047599048599047599047601045603046602046600047601047599048602047601)
 (.leaf 46605045605045604045603047601047601047604046604045613045613045612045611046611047611047612047613046618045618045615045614046614047614047617047618046619045619045618045615046615047617047618046618045621044621045621045620045620046619047621046621045624045624045623044621045621046621047623046623046628044628044626045626046624046625047625047628045630045631045630045629045628046628047630047631045631044631045631045630046628047630047631046632046633045631044631045631045630047631046632047633045634045634044634045632045633046633047633047634046642044641045641044640046638046639047641047642045645044646045645045644045643048644047645046645045650044650044649044647046646047646047647047648045651044651044650044649046647047647047648047649045652044651044651044650045650047648047649046652046653044652044651044651045651047649046652046653046661045661045660045659047659047659047660047661046662045662045661045660047660047660047661047662046665045665045664045663045663047663046664046664046670045670044669044668046666046666047667047670045670044670045670044669046667047667047670046670046674045672045671045670046670046671047673047674045673045673045672045671046671047673047674046674045678045677044677045677046675047675047678046678047681045683045680045679046679047679046680047681046684045684045683045680045680046680047681047682046685044684045684045683047681047681047682046684046699045697045696045695046695048697047698047699047699045698045697045696046696047698047699048699047700045700045699045698047699048699047699047700046705045705045704044702046701047701048702047705))))))
 (.node 16 (.node 8 (.node 4 (.node 2 (.node 1 (.leaf 46706045706045705045704046702048702047705047706046717046716046716046714046713047715048714047715000000046002046001000000047718000000000000000000000000045002046002046001000000000000000000000000047007045007045006045004047003049004000000000000048007046008045007045006047004000000000000000000046010046010045009046008048007000000049007048008047011000000046010045009048008049007048008047011000000000000000000046010046010048008047011048012048014000000000000045012000000047012048014000000047016000000000000000000047012048014000000000000046017000000000000000000048014000000000000000000000000000000000000000000046017000000000000000000000000000000000000000000000000000000000000000000000000000000000000000000000000000000000000000000000000000000000000000000000000000000000000000000000000000000000000000000000000000000047026049028000000000000000000000000000000047026049028047029000000000000000000000000000000047029049030047031000000046038046037046036000000047037047037048038047046045044045044046042047042048044048045049045048046046045045044045044047043048045049045049045047049046047046046046045048046049045049046048047048049046048046047046046048047049046048047048048048051046050046049046048048049048048048049048050046055046054047053046054047052048052048053049055048060046058046057046056047056047056047059049058046074046074046073046072047072047073048073047075047080046078046077046076047076049076048077048080046081046081046078046077047077048077048080048081046083046083047082046081046081048081047082047082046086045085046084045084047083048085048086048087)
 (.leaf 48088046089045086045085046086048087048088048089047090046090046089045086047086048088048089048090047091045090046090046089048088048089048090048091046093046093045092046093046091048091048092048093047098046098047097045095047094047095047095048096047111045110046110047108047107049108049109047110046126045127047125046124047124048124048125049127048130046128046127045127046126049127048127048128046130046129046128046127047127048127048128048131046130047131046129046128048130048128048131047131047137046137046136047134047133048133047134048137047138046138046137046136047134047134048137048138046144000000000000046143046142047142047142049145000000000000000000000000047142047142049145048146047148045146046145000000000000048146047145048146047149046147045146046145047145047145048146048149046152045152045151045151046150048149048152048153046152045153045152045151046150048152048153048154047155047154045153045152046152048153048154048155048158045157045156045155046155048156048157048158047159045158045157045156046155048157048158048159048159045159045158045157048158048158048159048160048162045160045160045159048159048160048161048162046161045163045160045160048161048161048162048163046163045164045163045160048162048162048163048164047167047167045166045164047163048165047166048165048171045171045171045169046168047168048169049172046172046173045171045171047169048169049172049172046172045173046173045171048171049172049172049172048174045173045173046173046172049172049172048173047176046174045173045173046172049172048173049175048177046175046174045173048174048173049175048177))
 (.node 1 (.leaf 47179046177046176046175048177048177048178048179048180045179046177046176046176048178048179048180048181046182045179045179048180048180000000000000047184047184046183046182048181000000000000000000047185045185047184046183047181000000000000048185000000000000000000000000000000000000000000000000000000000000000000000000000000000000000000000000000000000000000000000000000000000000000000000000000000046194000000000000000000000000000000000000000000046195046194000000000000000000000000000000000000000000000000000000000000000000000000000000047217046215046214046213047213048213048214048217047218046216046215046214047214048214048217047218046219046219046218046217046218047218048218047220000000047224046221046220047220047221048223000000000000046227047226047224000000000000000000000000000000047229046227047227000000000000000000000000047234000000000000046232047230048230048233000000000000000000000000000000047231048233000000000000000000000000000000000000000000000000000000000000000000000000000000000000000000000000000000000000000000000000000000000000000000000000000000000000000000000000000000000000000000000000000000000000048256000000000000000000000000000000000000000000046257000000000000000000047254000000000000000000048258000000000000000000048256000000000000000000048259045259000000000000046257000000000000048258048260045259045259000000048258000000048258048259046261046260045259045259048259048258048259048260046263045263046262046261047261047262048262047264046270045270045269045268046268047268047269048272046271045272045270045269046269047269048272048273)
 (.leaf 47274046274045272045270046270048272048273048274047275047275046274045272046271048273048274048275048278046279046278047276048277048277049277048279048279047279046279046278048277049277048279000000000000047282046281047279048279000000000000000000000000047283047282046281000000000000000000000000000000000000000000000000000000000000000000048312000000000000000000000000000000000000048312049314000000000000000000000000000000049314047314048317000000000000000000000000000000047314048317000000000000000000000000000000000000000000000000000000000000000000000000000000000000000000048320048323000000000000000000000000000000048320048323000000000000000000000000000000000000048323000000047324000000000000000000000000000000047324047324047326000000000000000000000000000000047326047326047328000000000000000000000000000000047328048330000000000000000000000000000000000000048330000000000000000000000000000000000000000000000000000000000000000000000000000000000000000000000000000000000000000000000000000000000000000000000000000000000000047392046390045390047388047388048390048391048392048393047393046390045390047389048391048392049393047401047401046400046399048399049399048400048401047402046402047401046400048400048400048401048402048405047405046404046403048403049403000000000000048406047405047405046404048404000000000000000000048408047407047407047405048406000000000000000000048409046408046407047407048408000000000000000000046415046415047414047414047413049413048414048415047418045417046415047414046415048414048415048416047419045417045417046415046415048415048416049417)))
 (.node 2 (.node 1 (.leaf 46424046424046423046422048422048422048423048424047425046425046424046423048422048423048424049425047426000000046425046424046424048424049425048426000000000000000000000000000000048428048429000000000000046429000000000000000000048429000000000000000000046432046429000000000000000000000000000000000000047433046432046429000000000000000000000000000000046432047433046432000000000000000000000000000000046436046433046432000000000000000000000000000000047437046436046433000000000000000000000000000000047437047437046436000000000000000000000000000000045440046439047437000000000000000000000000000000046441045440046439000000000000000000000000000000000000046441045440000000000000000000000000000000000000000000046441000000000000000000047442000000000000000000000000000000047443047445048446000000000000000000000000000000047446047446047448048449045451000000000000000000047448048448048449046451000000045451000000046449048448048449048450047453000000000000045451048449048449048450048451046452000000000000000000046451048450048451048452046455046455000000000000047453048453048454048455048459046459046458046455046455048455048456048459047461046461045460046459048459048459048460048461048462046462046461045460047458048460048461049461047464046464046463046462048462049461049462048464046464045464046464046463047461049462048464047465047470046470047469046466047466049468049468049468048475045475045475046473048474048473048474048475046478046478047477046478047476048478047479048478048487045486047485046484047484048486049487048488048487046487045486047485048487049487048488048489)
 (.leaf 47490046490046487045486048487048488048489048490047491046491046490046487048487048489048490047491046498000000046498046497047495048497047496048497047500000000000000046498047496047496048497048500000000000000000000000000046498048497048500048501000000000000000000000000000000048501048502048503000000000000000000000000000000048502048503047503046506000000000000000000047504048504047505048506046511046512046511047509047508048508048509048512047513046513046512046511047509048509048512048513047514046514046513046512046511048512048513048514047520046520045519046516047516048516048517048518047521045521046520045519047517048517048518048521046524046523045522046523046523048523048524047524047528046528046527046524047524048524048525048526046533046532045533046532048532048532048533048534046533046533046532045533047531048533048534047534048537046536046535047534047534047535048535048536048545046543046542047541048541048541048542048543047548046548046545047544048545048546049547048546048549047548046548046545047545049547048546048549048551047550046550047548048549048549048550049551048552045551046550047550048551049551048552048553048558047558046557046556048556048556048557049558046561045561046561046560048559048560048561049561047566046566045564046562047562049563049563048564048570045570045570046567046568048569048570048571048572046573047570045570048570048571049572048573047575046575045573046573048572048573048574048575048575045575046575045573047572048574048575049575047578047577046575045575048575049575049576049578047581046579045579046579048578048579048580048581))
 (.node 1 (.leaf 46580046580046579045579046580048580048581049581047584046584046581046580046580049581048583048584047585046585046584046581047581048583048584047585047592046592046591046590048589048590049591049591047595046595046594046593048593049592049594048595048602047601047601046600048599048598048599048602047604046604047601047601048602048602048603049604046604046605046604047601047601048603049604049604047607045606045606046605046604049604048606048607047617046615046614045613047613049613048614048615047618046618046615046614047614048614048615048616047621045620045620046619046618048617048620048621046621045621045620045620046619048620048621048622046625046624045625045624046623047623047625047625047628046628046627046624046625047625048627048628046628045628046628046627047625048627048628047629046633045633046633045631046632048632047633048632046635046635045634046633047633047634048634048635047641046641046638046637047637048637047638048641047642046642046641046638046639047638048641048642046645045645046645045643048644048644048645047646046652045652045651045650047648047649047649048650046653046653045652045651047649047649048650048651046654046654046653045652046652048650048651048652047655046655046654046653046653048651048652048653047656046656046655046654046654048652048653048656047659047659046658046657046657048657048658048659047660047660047659046658046658048658048659048660047670046670046667046666046666049668048669049670046670045670046670046667047667048669049670049671047673046671046670045670046670049671049671049671047674046674046671046670046671049671049671048672)
 (.leaf 47678046676046675046674047674048676048677047678046678045678046676046675047675048677047678048677046684046685046684047681047681048681048682048683046686045684046685046684047682048682048683048684046686046685045684046685046684048683048684048685046690046688046687046686047686048686048687049689047691046689046688046687047687048687049689047690048693046692046691046690046690047691048693048694046693046693046692046691046691048693048694048695047696046694046693046692048693048694048695049696048697046695046694046693046693048695049696048697047699046699046696046695048697048697049697048697048702046702046701047700047700049701048703048704047705046705046702046701047701048703048704049704047706046706046705046702048702048704049704048706047711046709046708047707047707048707049709048711048711047711046709046708047708049709048711049710047714046712046711047711048711049710049712048714047715046713046712046711047711049712048714049714047718046718046717046714048714048714048715048716048717046719046718046717047715048715048716048719000000046001000000046719048717048719000000000000000000000000000000047718000000000000000000000000049004047003047002000000000000000000000000000000000000047004047003047002048002000000000000000000000000047007047004047003049004000000000000000000000000048007047007047004000000000000000000000000047011047011046010048008049007000000049008049009048012000000047011046010048008049008049009049012047012000000000000047011047011049009049012048012000000046017047016048014000000049015000000000000000000047018046017047016000000000000000000000000))))
 (.node 4 (.node 2 (.node 1 (.leaf 47018046017000000000000000000000000000000000000000000047018000000000000000000000000000000000000000000000000000000000000000000000000000000000000000000000000000000000000000000000000000000000000000000000000000000000000000000000000000000000000000000000000000000000000000000000000047026000000000000000000000000000000000000049026049028000000000000000000000000000000049026049027047029000000000000000000047026049026049027049028049030000000000000000000049028049027049028049029047031000000000000000000047029049028049029049030047032000000000000000000049030049029049030049031047033000000000000000000047031049030049031050033047034000000000000000000047032049031050033049035047034000000000000000000047033050033049035049036047036000000000000000000047034049035049036049037047037000000000000000000047034049036049037050037047037000000000000000000047036049037050037049037047041047040047039000000048038050038049039049042047041047041047040047039048039049039049042049043048044047042047041047040047041049042049043049044048045047043047042047041047041049043049044050044049055046055047053047052048052049052049053049054047056047056047055046055049055049054049055049056047059047057047056047055048055049055049056049057049058048060047057047056047056049056049057050059048065047063047062047061048061049061049062048064048069047067047066047065047067049065050067049069047069047068047067047066047067050067049069049070047075046074046074047072047073049072049073049074047075047075046074046074048073049073049074049075049076047076047075046074047075049074049075049076)
 (.leaf 48080047080047077047076049076049076049077049078048081046081047080047077048077049077049078049081048084046083046083047082047082049082049083048083047095047094046093046093048092048093049093048095047099047100046099047098048096048097049097048099049107047106047105047104047105048104049105049108049108047107047106047105048105049105049108049109049109047110047107047106049107049108049109050108047110047111047110047107049108049109050108049109049114047115047114047113048111049111049112049113049115047116047115047114048112049112049113049114049115047117047116047115049114049113049114049115049127046126048125047124048124049124050127050127048131046130048130047127048127050127049128049131049133047132047131046130047131048131049131049132047134047134047133047132049133049132049133049134048137047137047134047133048133049133049134049135048138047138047137047134047134049134049135050136048142046142047141047140049139049140050140050142047142046142046142047141048139050140050142048142049145046144047142046142047142048142049144049145048146000000046144047142047142049144049145049146047145047145000000046144049145049145049146049147048149047149047148047145047145049147049148049149047149047150047149047148048146049148049149049150048152046150046150047150047149049150049151049152048153046152046150046150048149049151049152048153049172048171047169046168047168050169050170049170049172046172046172048171049172049170049171049172048177048177047176048174048173050174050174050175048178046176048177047176049175050174050175049178000000047184047181048181000000000000000000000000))
 (.node 1 (.leaf 48185047185047184047181000000000000000000000000049185047186047185047184000000000000000000000000000000000000048187047186049185000000000000000000000000000000000000000000000000000000049187049190000000000000000000000000000000049187049190000000000000000000000000000000000000049190000000000000000000000000000000000000000000000000000000000000000000000000000000000000000000000000000000000000000000000000000000000000000000000000000000000000048217047217047214047213048213049213049214048217047218047218047217047214048214049214048217049216047220046219046218046218047218050217049218048220048223047223047220046219047220048220049222049223000000000000047223047220047221049222049223048224000000000000000000000000000000049225000000000000000000000000000000000000000000000000000000000000000000000000000000000000000000000000000000000000048233047231047230000000000000000000000000000000000000047234047231047230048230000000000000000000000000000000000000047234000000000000000000000000000000000000000000000000000000000000000000000000000000000000000000000000000000000000000000000000000000047254000000000000000000000000000000000000000000048256047254000000000000000000000000000000000000048258046257048256000000000000000000000000047262047261046261048260048259050259049260050261047264046264046263046263048262048263048263048265047269046269046268046267047267048267048268049271048272046270046269046268047268048268049271048271049277048277048277047276049276049276049277049278000000000000000000048279000000000000000000000000000000000000000000000000000000000000000000000000)
 (.leaf 49314000000000000000000000000000000000000000000047314000000000000000000048312000000000000000000048317000000000000000000049314000000000000049315000000000000000000000000047314000000049315048317048323000000000000000000000000048319048320049321000000000000000000000000048320048320049321048323047324000000000000000000000000048323049325048325047326000000000000000000047324048325048325048327048330000000000000000000047326048327048329049330000000000000000000000000000000048331000000000000000000000000000000000000000000000000000000000000000000000000000000000000000000000000000000000000000000000000000000000000000000000000000000000000000000000000000000000000000000000000000000049384047385000000000000000000000000000000049384048386048390047388047387047386048386048387049389049390048391047389047388047387047387049389049390050391049397047397048396047395049395050395049396050397049399048399047398047397049397050397049398050399049411046411047410047409000000000000049410049411049413047413047412046411049411049411049412049413049417047419047418046415048415049415049416050417048420047420047419047418048416049416050417049418048421047421047420047419049417050417049418049421048427047427047426047425049425049425049426049427)))
 (.node 2 (.node 1 (.leaf 47442000000000000000000000000000000048440049443047443000000000000000000000000048440049443049444047445000000000000000000047442049443049444048445048446000000000000000000047443049444048445049446048459048459047456046455048455049455048456048458047465046464047464047461049462049463048464048464049466047465046464046464047465048464049464049465049468047466047465046464047465049464049465049466049468047467047466047465049466049465049466049467049468047470047467047466049468049466049467049468048472047470048469047470049468049468049471049472048478047476048475047474048474049474048475048478047479047477047476048475048475048475048478049477047483047481047480047479048479049481048480049481047483046483047481047480048480048480049481049484049484047483046483047481047483049481049484050483048486047484047483046483047483049484050483049484049487048487047484047483049484050483049484049487047493046493047492046493048491049491049492049493048497047495047494046493047493049493049494049495047496047496047495047494048494049494049495049498048501000000047500046498048497049499048498049499049507047507046506047505047505049505049506049507048512046511047509047508048508049510050510049512048513047513046511047509048509050510049512049513048521047521047520047517048517048517049518050520048522047522047521047520048518049518050520050521048529047529047528047525048525048525049526049527048530047530047529047528048526049526049527049528048546048545048545047542048542049542049545050545048549048549047548047545049547049545049548050547)
 (.leaf 48550048549048549047548048546049548050547049550048557047557048556047555049555050555049556049557049563047562047561046561049561049562050563049562049563047565047562047561049563050563049562049563048568047568047567047566048564050564049565049568048569046568047568047567048565049565049568049569048579048578047578048576049576049577049578050578048584047584047581046580049581049582050583050583048587047587047586047585047585049583049586049587049592048593047592047591049591049591049592049593049594047594048593047592049591049592049593050593048596047596047595047594049594050593049593050594049598047599047598047597049597049597050598049599048602048602047599048599048598050599050599049600048603047601048602047599048599050599049600050602048606047606046604047604049604049604049605049606048607047607047606046604049604049605049606050607049613047613047612047611048611049611049612050613048620046619046618047618048616049616049617049620048621047621046619046618048617049617049620049621047625046625046624046623047623048623049623048625048628047628047625046625047625048625049625048627048631047631047630046628047629049629049630048630047634047633046633047633047633049633048632050633047638046639047637047636048636048636049637050639048641047641046639047637048637049637050639049639048642047642047641046639047638050639049639050641047647047646046645046645047646048645049645049646047649047647047646046645047646049645049646049649047649047648047647047646047647049646049649048649048656047656047655046654048652048652049653048656048657046657047656047655048653049653048656049657))
 (.node 1 (.leaf 47664046664046664047663048661048662048662049663049665047664046664046664048662048662049663049664047666047665047664046664047664049663049664049665049668046666047665047664049665049664049665050667048669047667046666047665047666049665050667050668049670047670047667046666049668050667050668049668049671046671046670047670049670049668050669049670049671047673046671046670049671050669049670049671048675046674047674047673049671049671049672049673048676047674046674047674048672049672049673049674047680046680047679046678048678048679048679049680049689046690047687047686048686048687049687049688047690047691046690047687048687049687049688049689047691046690047691046690049689049688049689049692048693046691046690047691047690049689049692050693048694048693046691046690047691049692050693050693049697047698048697047696049696049696049697050697049701047700047699048699048698050700049701049702048703047701047700047699048699049701049702049703049706048706047706047705049704049705049706049707049709047708047707047706048706050707050708050708048711047711047708047707048707050708050708049709049710048711047711047708049709050708049709049712048714047714047711048711049710049712049713050714049714047715047714047711049712049713050714049713000000047718048717047718048716049718049719000000000000000000000000000000000000000000000000000000000000049004048002000000000000000000000000000000000000000000000000049004000000000000000000000000049012048012047011048008049008000000000000000000048012047012048012047011049009000000000000050011049015000000048014047012048012050011000000000000)
 (.leaf 48014048013000000000000000000000000000000000000000000000000000000000000000000000000000000000000000000000000000000000000000000050033047033047032047031049030000000000000000000049035047034047033047032049031000000000000000000049036047034047034047033050033000000000000000000050038048038047037047037050037000000000000051038049042047041048039048038050038051038050039050042049043047041047041048039049039050039050042049043050049048049048048048047049047050047050048050049050060048060048059049058050059050058050059050060048064048065048062048061049061050061050062050063048064048066048065048062049062050062050063050064050067047067047067048066048064050064050065050066049069048069047067047067049065050065050066050067049070047069048069047067050067050066050067050068049081048081048080048077049077050077050078050079049082047082048081048080049078050078050079051080048089048089048088048087048087050085050086050087048093048092048091047092049090050090049091050092048095047095048093048092048093050092049093050094049097047095047095048093049093049093050094049096048099047099047099048096048097049097050099050100048100047101047099047099049097050099050100050101048101047101047101047099048099050100050101049102048101048101047101047101048100050101049102049102049119048117048116049115049115050117049118050117049123048121048120048119048119050119051122050123050127048125048124048123048124050123050124050125050127049127048125048124049124050124050125050126049131048131048128048127050127051128050128050129048131047131048131048128049128050128050129051130)))))
 (.node 8 (.node 4 (.node 2 (.node 1 (.leaf 50136048138048137047134049134049135050135050136049139048139048138048137049135050135050136050137049140049139048139048138050136050136050137050138048142047142048142048139050140050141050142050143049144047142047142048142050142050142050143050144049145049145047142047142048142050143050144049145049156048156048155048154048153050154050155051156048156048157048156048155049153050155051156050157048158048159048158048157048156050157050158050159048160048160048159048158048156050158050159050160048160048161048160048159048158050159050160050161048161048162048161048160048160050160050161050162048163048163048162048161048160050161050162050163048163048164048163048162048161050162050163050164049165048165048164048163048163050163050164050165050165047166048165048164048163050164050165050166049168048166048165047166050165050166051167051167048168048167048166048165048165051167051167050169050170048169047168048167048168050169050170050171050174048173049172049172049171051172050172050173050174049175048173049172049172050172050173050174049178048178048177049175050174050174050175051178049179048179048178048177050175050175051178050179000000000000000000048180050179051179051181051182000000000000000000000000050180051181051182051183000000000000000000000000000000051182051183051184000000048185000000000000000000051183051184000000000000049185048185000000000000051184000000000000049190000000000000000000000000000000050187051189000000000000000000000000049187050187051189049190000000000000000000000000000000049190050192051192000000000000000000000000000000050192051192000000)
 (.leaf 50203050206000000000000000000000000000000050203050206050207000000000000000000000000000000050206050207051208000000000000000000000000000000050207051208000000000000000000000000000000000000051208000000000000000000000000000000000000000000000000000000000000048211000000000000000000000000000000000000051212048212048212000000000000049210000000051212051213048217048217048214048213049213049213050216050217050217047218047218048217048217050217049216050217048220047220048218047218050217050217050218051220049222047221047220048218049218050218051220051220049223048223047221047220048220051220051220050221000000000000000000000000048224049222050223050226000000000000000000000000000000050226000000000000000000000000000000000000000000000000000000000000000000048230000000000000000000000000000000000000000000048233048230000000000000000000000000000000000000000000048233048230000000000000000000000000000000000000000000000000000000000000000000000000000000000000000000000000000000000000000000000000000000000000000000000000000000000000000000000000048259048258000000000000000000000000000000000000050259048259048258000000000000000000000000050259050261047262048260048259050259050259050260051261048263048262047262048260049260050260051261050262048263047264048262047262050261051261050262050263048265047264047264048262048263050262050263051265048265047265047264047264048263050263051265051265049271047269047268047267048267049267049268049271048271048272047269047268048268049268049271049271048274048274048273048272048271049271050273050274))
 (.node 1 (.leaf 48275048275048274048273048272050273050274050275049276049276048275048274048274050274050275050276049277048277049276048275048275050275050276051276000000000000000000048279000000000000000000000000000000000000000000000000000000000000000000000000000000000000000000000000000000000000000000000000000000048312000000000000000000000000000000000000000000049314048312000000000000000000000000000000048317000000048317047314000000000000051315050316048318000000000000048317049315051315050316050317048319000000000000000000048317050316050317050318048319000000000000000000048318050317050318051319048320048320000000000000048319050318051319050320048323000000048323048320048320050320051321050322049325047324000000048323049321051321050322049324048327047326047326047324048325050326049327049327049330048330047328047326048327049327049329050330000000000000000000000000048331000000000000000000000000000000000000000000000000000000050382050383048386047385000000000000000000050383050384050385048387048386047385000000049384050384050385050386049389047387048386047385048386050385050386051389049390048390047387048386048387050386051389050390050393049393048392048391050391051391050392050393000000000000000000000000000000000000000000000000049421048421048420049417050417050417050418049421049422048422048421048420049418050418049421049421049426048426049425048424050423050424050425050426000000000000000000000000000000000000000000000000000000000000000000000000000000000000000000050433000000000000000000000000000000000000050433050436000000000000000000000000000000050433050436000000)
 (.leaf 48440000000000000000000000000000000000000050440049443047442000000000000000000000000050440050441049444047443047442000000048440050440050441051442049447047446048446047445048445050445050446051446050451048451048450048449048449049450049450050451048452048452048451048450048450049450050451050452050455048454048453048452048452050452050453050454048456048456048455048454050455050454050455050456048458048459048456048455049455050455050456050457048458048460048459048456048456050456050457050458049461048461048460048459048458050457050458050461049462049461048461048460048458050458050461050462049471048469049468049468049467050467050470050471049472048472048469049468049468050470050471050472048475048475048474048473048473049474049474050475048478048478048475048474049474049474050475051476049481048479048478047479049477050477050480051481048480048480048479048478049478050480051481051481049484047483047483048480048480051481050483051482050483049484047483047483049481050483051482050483049487049487048486049484050483050483051485050487050487048488049487048486049484051485050487050488048489048490048489048488050487050488050489050490049498047496048497048494049494050494050495049497049502048502048501048500048498049499049499050502049503048503048502048501049499049499050502050503049510048508049507048506049506049507049507050508050510048509048508049507049507049507050508050509049513048513048512048509050510050509050512050513048517048517048516047516048516049516050518050519050520048521048518048517048517050519050520050521)))
 (.node 2 (.node 1 (.leaf 50521048522048521048518049518050520050521050522049523048523048522048521050520050521050522049522048531048532048531048530049528051529049529051530049533048533048532048531048529049529051530050533048534048534048533048532048531051530050533049533048535047535047534048534048534049533050535049535048539048538048537048536049536049537050537050538048540048540048539048538048539050538049539050540050541048541048540048539049539049539050540050541049545048543048542048541050541050541051543051543050545048546048543048542049542051543051543051545049548048546049547048546050545051545050547051547049551049551048550048549050547050549051550050551049554048554048553048552050552050552050553050554050555049555048554048553050552050553050554051554050564048564049563049563049562050562050563050564049568048568048565048564050564050564050565050566049569048569048568048565049565050565050566050567048573048573049572048571050569051570050572050573049575048575048574048573048573050573050574050575050580048581048580048579050578051578051578051579049582049581048581048580049578051578051579051580049586048586047585048584050583050584050585050586049587048587048586047585049583050585050586050587049590048590048589048588050588050588050589050590049591049591048590048589048588050589050590049591049597049597048596048595049593050593051596050597050598048598049597048596050594051596050597051597050602048603048602048599050599051600050600051602049604049604048603048602049600050600051602050602049605049604049604048603050602051602050602050603048608047608048608048607050607051607050608050609)
 (.leaf 48615048615048614049613050613050613050614050615049620048620048617048616049616051617051618051620049621048621048620048617049617051618051620050621048627048628048627047625048625049625049625049627049630047629047629048628048627049627050627051630049633047633048632048631048630051631051631050631048632048632047633048632049630051631050631050632050635048634047634048632048632050632050633050634048635048635048634047634050633050633050634050637048636048636048635048634050635050634050637050638050639047638048637048636048636050638050639050640050641048642048641047638050639050640050641050642049643048643048642048641049639050641050642050643049644048644048643048642050641050642050643051643049649047649047647047646049645049646050646050649048649047649047649047647049646050646050649051649049652048650047649047649048649051649050649050650049653048651048650047649049649050649050650049653049657048657048656048653049653049654050656049657049658048658048657048656048656050656049657050658050667049668047666049665049664050664050665050666050668048669049668047666049665050665050666050667050669049671049670048669050668050667050668050669049678047678048677048676049674049675050677050678048678048677047678048677048677050677050678049678048679048679048678048677048678049678049678050681048685048684048683048682049682051683049683050684049687048685048684048683049683049683050684050687048687048686048685048684048685050684050687050688049692047691047690049689049688051689051690050692050693048693047691047690049689051690050692050693049695048695048694048693050693050693049694049694))
 (.node 1 (.leaf 50700048698048697049697050697050698050699050700049701048699048698048697049697050699050700050701049702049701048699048698050700050700050701049702050708049709048707048706050707050708050709050710049713049712049710048711049709050711050712000000049718048716048715048714050715000000000000000000049719048719048716048715049715000000000000000000000000049008000000000000000000000000000000000000000000049009049008000000000000000000000000000000000000049012049009049008000000000000000000000000000000048013048012049012000000000000000000000000000000049015048013048012050011000000000000000000000000000000049015048013000000000000000000000000000000049026000000000000000000000000000000000000000000049027049026000000000000000000000000000000051029049028049027049026000000000000000000000000051030049029049028049027000000000000000000000000000000049030049029049028051029000000000000000000000000049031049030049029051030000000000000000000000000050033049031049030000000000000000000000000000000049036049035050033000000000000000000000000000000049037049036049035000000000000000000000000000000050037049037049036000000000000000000000000050042049042049039050038051038052038052039051042049043049043049042049039050039052039051042052041051052049052050051049050050050050051051051051052049055049053049052050051050051051051051052051053050056049054049053049052051052051052051053052054050057049055049054049053049055051053052054051055050073048072048071049071050069051069051070051071049074049072048072048071050070051070051071051074051076049074049073049072049074051074051075051076)
 (.leaf 49076049076049075049074051076051076051077051078051080049082049081049078050078050078051079051080050083049083049082049081050079051079051080051081049084048083049083049082051080051080051081051082049085049086048085048083049084051082051083051084049089048090048089048089050087051087051090051091049091049091049090048090049089051091052092051091049096049097048095049093049093050093051094052095049097048097049097048095050094051094052095051096050099049097048097049097049096052095051096051099050100048099049097048097049097051096051099051100050105049103048102048101049102051103051104051105049104048104049103048102050102051104051105051106049106049108049105048104049104051106051107051108049112049112049111049110049110051110051113052113050115049113049112049111050111051113052113051115050116049114049113049112049112052113051115051116051122049120048119048119050118051118051121052122050123049123049120048119050119051121052122052122049122049124049123049120051122052122052122050124051130048131049131049128050128052128051129051130050133049131048131049131050129051129051130051131051133049132049131048131051130051130051131051132049135049134049133049132051133051132051133051136050141050140049140049139050137051139051140051141049147049147049146049145049145052145051146051147050149049149049148049147049147051147050148051149051152048153049152049151049150050150051152051153050154048153048153049152049150051152051153051154050155049153048153048153051152051153051154051155050158048156048156049156051156051156050157050157050169048168049168048165051167051167051168051169))))
 (.node 4 (.node 2 (.node 1 (.leaf 50170050169048168049168051167051168051169051170051178049178050175050174050174052175052176052176050179049179049178050175050175052176052176051179051179050179049179049178051178052176051179052180051183000000000000050180051181000000000000000000051184000000000000000000051182000000000000000000000000000000000000000000051183000000000000000000000000000000000000000000051184000000000000000000000000000000000000000000000000000000000000000000051189049190049187000000000000000000051187052188049190000000049190049187050187051187052188051189050192000000000000049190051189052188051189052191051192000000000000000000049190051189052191051193000000000000000000000000051192051193052193052193000000000000000000000000000000052193052193051194000000000000000000000000000000052193051194000000050206000000000000000000000000000000000000000000050207000000000000000000050203000000000000000000000000000000000000000000051208000000000000000000000000000000000000000000000000000000000000000000000000049210000000000000000000000000000000000000051212048211049210000000000000000000000000000000051213048212048211049210000000000000000000000000049213049213048212048211051212000000000000000000050216049214049213048212051213000000000000052215050217048217049214049213049213000000052215052216051220049222048220049218050218050219050219052222049222048224049223049222051220052222052222050223050226000000049225048224049222050223051223051224000000000000000000049225050223051223051224051225000000000000000000000000000000051225051228051229000000000000000000000000000000051228051229000000)
 (.leaf 48259000000000000000000000000000000000000051265048265048263048263050262051262051263051264051265048265048265048263050263051263051264051265049266048266048265048265051265051264051265051266049267048267048266048265051265051265051266051267049268048268048267048266049266051266051267051268049271049271048268048267049267051267051268051269049271048271049271048268049268051268051269051270050273048272048271049271049271051269051270051273050274048274048272048271049271051270051273051274000000000000049278049277051276051277000000000000000000000000000000049278000000000000000000000000000000000000000000000000000000000000000000000000000000000000000000000000000000000000000000000000000000000000000000000000000000000000000000000000051315049315000000000000000000000000000000051315051319048319048319048318050317052318051318052319051321049321048320048319051319052319051320051321049324049325048323049321051321051321052323052324050326048325049325048323050322052323052324052325049327048325048325049325049324052324052325052326049329048329048327048325049327052326000000000000050330049330048329048327049327000000000000000000049331048331049330048329049329000000000000000000000000000000048331048331049331000000000000000000000000000000000000048331000000000000000000000000000000000000000000000000000000000000000000000000051389049389048387048386050385050385051388052389))
 (.node 1 (.leaf 50390049390049389048387050386051388052389051390051391050391049390049389051389052389051390052391050396049396050395049394051393051394052394051396000000000000000000000000000000000000000000051408000000000000000000000000000000000000051408051409051415049414049413049412050412050413051413051414051415049415049414049413050413051413051414051415049421049421049418050417050417051417051418051419049421049422049421049418050418051418051419051422049422049423049422049421049421051419051422051423050424050423049423049422049421051422051423051424000000000000000000000000000000000000000000000000050436000000000000000000000000000000000000000000000000000000000000000000050433000000000000000000000000000000000000000000000000000000051438050438051442049444049443048440050440050440051441051442050445048445049444049443050441051441051442051443050446049446048445049444051442051442051443051444049449048449049447048447050446051446050447051448049450048449048449049447049448050447051448051449049450048450048449048449049449051448051449051452050461049461048458048458050457052458051458051459050462049462049461048458050458051458051459051460049465049464048464048464049463052463051465051466050467049465049464048464049464051465051466051467050470049468049467049466049467050466050467051468050471049471049468049467050467050467051468051471049474048473049474048471049473052473052473051475049474049474048473049474050472052473051475050475051476048478048475049474049474050475051475051476050480049478049477048478051476051476051477051478051481049481049478049477050477051477051478051481)
 (.leaf 50483049481048480049481051481051481051482052482051482049484049481048480051481051482052482052482051485049484050483049484051482052482051483051484050487049487049484050483050483051483051484051485050488050487049487049484051485051484051485052488049493049493049492049491050491051491051492051495049497049498049495049494050494050495051495052496049497049499049498049495050495051495052496051497049499048498049499049498049497052496051497051498049499049499048498049499049497051497051498052500050502049502049499048498049499051498052500050501049506048505049505048503049504051504050505051506049507049506049505048505049506051506050507050507050519048517049516048516049516050516000000000000049524048524048524049523049522051523050522051523049524049524048524048524049523050522051523051524049525048525049524048524049524051523051524051525049526049526048525049524049524051524051525052526049528049527049526048525049525051525052526051527051529049528049527049526049526052526051527051528049529048529049528049527049528051527051528051529051530048531048529049528051529051528051529051530050533049533048531048529049529051529051530051533049533048534049533048531051530051530051533051534049535048535049535048534049533051534051535050535049537049536049535048535049535050535051535051536049539049539048539049537050537051537052539051539051543049545049542050541050541051541050542051543051545050545049545049542051543050542051543051544051547049548049545050545051545051544051545051546051550049550050547049548051547051546051547051548050552050552049551049550051550051548051549051550)))
 (.node 2 (.node 1 (.leaf 50558050558049557049556051556052555052555051556050559049559050558049557050555052555051556051557050572049570050569050569050568051570052571052571050573048573049570050569051570052571052571051573051579050580049578050578051578052578052578051579050583050583049582050580051579051579052582051583050584050583050583049582051580052582051583052583050593049593049592049591049591051591051592051593050597049597050594049593050593051593051596052596051597050598049597050594051596051596052596052598051602050602049600050599051600051601051602052602050606049606049605049604050602051602052604051606051607050607049606049605050603052604051606051607051617049616048615049614050614051614052615052617051618049617049616048615050615052615052617051617051620049620049617049616051617052617051617052619050621049621049620049617051618051617052619052620051620049622049621049620051620052619052620051620049624049623048623048623050621052622052623051623049625048625049623048623050622052623051623051624049625049625048625049623049624051623051624052625049627048627049625048625049625051624052625051628051630049630049629048627049627051628052627051630051631048630049630049629050627052627051630052631051631049630048630049630051630051630052631052631050638048636048635050635050634051634051635051636050646048645049645049644051643051644051645050646051649048649049649049646050646051646050647051648049653049653049652049649050649051649051650051651049654048652049653049652050650051650051651052652049654049653048652049653049653051651052652051653050656048656049653048652049654052652051653050656)
 (.leaf 49657049657048656049653049654051653050656051657050659049659049658049657049657051657051658051659050677048677049674049673050673050674051674051675050678049678048677049674049675051674051675050678050681048679048679048678049678050678050678051681049681049680048679048679049678050678051681051682049683049683049682049681050681050682051682051683050687049687048685049683049683051683051684051685050688048687049687048685050684051684051685051688051690049689049688049687051688051689051690052691050692049692049689049688051689051690052691051690050693050693049692049689051690052691051690052692050696049696049695050693049694052693051695052695050697049697049696049695049694051695052695052696049705049706049705049704049704051702051703051704050707049707049706049705049704051703051704051707050708050707049707049706049705051704051707051708000000049718049715050715000000000000000000000000000000049719049718049715000000000000000000000000000000000000049719049718000000000000000000000000000000000000000000049719000000000000000000000000000000050011000000000000000000000000000000000000000000000000050011000000000000000000000000000000000000000000000000050011000000000000000000000000000000000000000000000000000000000000000000000000000000000000000000000000000000000000000000000000000000000000000000000000000000000000000000000000000000000000000000000000000000000000000000000000052039050039051038000000000000000000052038052039051042050042050039051038052038052038052039053040052041049043050042050039052039052039053040052041051046050044050043051042051042053043053043052044))
 (.node 1 (.leaf 50047050045050044050043051043053043052044052045051049050047050046050045050047052045052046052047051050050048050047050046052046052046052047052050052054050056049055051052051052053052052053052056051058049056050057050056052054052056052057051058051059050057049056050057051055052057051058051058050061050060050059050058050059051059051059051061050062050062050061050060050061051061051061052062050065050065050064050063051063051064051066051066051074049074050073050070051070052070052071052074051075050075049074050073051071052071052074052075050085050085049085050085051083053083052084052085052087050086050085049085051084052084052085052086051090050088050087050086052087052086053087052088051091049089050088050087051087053087052088052089052092050092049091050090052092052090052091052092050093049093050092049091051091052091052092052093052095049096050094049093050093052093052094052095051099050099049097049096052095052095052096053098051100050100050099049097051096052096053098053098052113049112050111049110051110051111052111052112051116050116050115049112052113052112052113052114052122051122050119050118051118051118051119052122051125050123049122050123052122052123053123053124050125050124050123049122050124053123053124051125052126050126050125050124050125051125053126053126052127051128050126050125051125053126053126053127051136049135051133051133051132052132052133052134051137050135049135051133051133052133052134052137051147049147050146049145052145053144053144052147050148050150050149050148050148052148052149052150051152049150049150050150050148052150052151051152)
 (.leaf 51153051152049150049150050150052151051152051152050159050160050159050158050157052158052159052160050159050161050160050159051157052159052160051161052164050164050163050162051160052162052163052164051165050165050164050163050162052163052164052165051166050166050165050164052164052164052165052166052174050173050172051172052173052173052174052175052175050174050173050172051172052174052175052176052176050175050174050173052174052175052176052177052176051178050175050174052175052176052177000000051179050179051178050175052176052177000000000000000000051182051181051179052180000000000000000000052188051189050187000000000000000000000000052188052191050192049190051189052188052188052191000000051193051192050192049190051189052191000000000000000000000000000000000000052193000000000000000000000000000000000000000000051194000000000000000000000000050206050203000000000000000000000000000000000000050207050206050203000000000000000000000000000000051208050207050206000000000000000000000000000000000000051208050207000000000000000000000000000000000000000000000000000000000000000000000000000000000000000000000000000000000000000000000000000000051212000000000000000000000000000000000000052215050216049213051213000000000000000000000000052216050217050216049213000000000000000000000000050217049216050217050216052215000000000000000000050218050217049216050217052216000000000000052217050219050218050217049216050217000000052217051219052222050221051220051220050219052221052222000000050223049222050221051220052222052222000000000000051228000000000000050226051224052224052225053227)))))))
 (.node 32 (.node 16 (.node 8 (.node 4 (.node 2 (.node 1 (.leaf 51229000000000000000000051225052225053227052229000000000000000000000000000000000000000000000000000000000000000000000000000000000000000000000000000000000000000000000000000000000000000000000000000000000000000000000000000000000000000000052258051273050273049271049271051269052269053271053273051274050274050273049271051270053271053273052274000000000000000000000000000000000000000000000000000000000000000000000000000000000000000000000000000000000000000000000000000000000000000000000000052317050316051315000000000000000000000000000000052318050317050316051315051315000000000000000000052323050322051321050320051320052320053323000000052324049324050322051321051321053323000000000000052325050326049324050322052323000000000000000000052326049327050326049324052324000000000000000000000000049327049327050326052325000000000000000000000000049329049327049327052326000000000000000000000000050330049329049327000000000000000000000000000000049331050330049329000000000000000000000000000000000000049331050330000000000000000000000000000000000000000000000000000000000000000000000000000000000000000000000000000000000000000000000000050385050385050384050383051383052383052386053386051388050386050385050384051384052386053386052388052389051389050386050385050385053386052388053389000000050402050401050400052399052400000000000000000000000000000000050402000000000000000000000000000000000000000000000000000000000000000000052406050413050412050411050410050410051410052413052414051422049421049421050418051418053419053420052422051423049422049421049421051419053420052422053422)
 (.leaf 51427050427050426050425050424051424052426052427051428050428050427050426052426052426052427052428000000000000000000000000000000051430052430051432000000050436050433000000000000000000000000000000000000000000050436050433000000000000000000000000051438000000000000050436000000000000000000052436050438000000000000000000000000000000052436052437050440000000000000000000050438052437052438052441050440050440000000000000050439052438052441052442050447049448050446051446051445052445051448051448051452049450049450049449051448051448052449052450050451050451049450049450051449052449052450053452051456050454050453050452051452051453051453052454051457050455050454050453051453051453052454052455052463050463050462050461051459052461053461052463052463049463050463050462051460053461052463053462051465049464049463050463052463052463053462052463051466049465049464049463052463053462052463053465051471050471050470050467050467052467052468052471051472050472050471050470051468052468052471053471051475049474050472049473052473052473052474052475050475049474049474050472052473052474052475051475051481051481050480050477051477051478053480052481051482051481051481050480051478053480052481051481052488050488050487051485051484052484052487052488050488050489050488050487051485052487052488052489051490050490050489050488052488052488052489052490050490049489050490050489050488052489052490051490051495049493050492050491051491052491052492052493050495050494049493050492051492052492052493052494052496049497050495050494050495052494052495052496052500049499049499049497051497052497052498052499))
 (.node 1 (.leaf 50501050502049499049499051498052498052499052500051503050503050502049499052500052499052500051502050507049506049506050505050505052505051506051506051510050508049507049507050507052508052509052510050511050509050508049507051507052509052510051511050514049516050515050514050514051513052513052516050516049516049516050515051513052513052516051516000000050520050519050518000000051517052519000000051521050521050520050519000000052519000000052521051522050522050521050520000000000000052521051521052526049526049525049524051524052524052525052526051533050533051530049529051529052529052530052533051534049533050533051530051530052530052533052534052539050538050537049537051536051536052537053538052541050540049539050538052539053538052539052540050542051543050541050540052541052540052541052542051554050554050553050552051550051550052551052552051555051554050554050553051551052551052552052553052567050566050565050564051564051564051565052566052568050567050566050565051565051565052566052567051570050568050567050566052567052566052567052568052571051570050568050567052568052567052568052569051573050573050572051570052571052569052570052571052572050574050573050572052571052570052571052572051577050577050576050575051573052573052574052577050578050578050577050576051574052574052577053578051583050583051580051579051579053580053582052583052583050584050583051580052582053582052583053584052585050586050585050584052583053584053584052584051588050588050587050586052585052584052585053588051592050592049591050590052590053590053591053591051596051596050593051593052592052594052595052596)
 (.leaf 52596050597051596050593051593052595052596052597051601051600051600051598052599052599052600052601052604050603050602051602052602052603052604052605051606050606050603050602051602052604052605052606051607051607050606050603052604052605052606052607052615050615050614050613051613051614052614052615052617051617050615050614051614052614052615052616052620050621051620051618051617052617053618053619052622050621051620050621052620053619053620052621052623050622050621051620051620053620052621052622052625049625049625049624051623053623052624053625051628049627049625049625051624052624053625053626052627050627049627049625052625053625053626053628052631051631051630050627052627053628053629053629050638050640050639050638051636052636051637052640051641050641050640050639050637051637052640052641051642050642050641050640050638052640052641052642050647050649050646049646051645051645051646052647052652049654049653050650051650051650052651053654050656050656049654049654052652053654053655052656051657049657050656049654051653053655052656051657051658050658049657050656050656052656051657051657051662050662050661050660050659051659052661051662050662049662050662050661050661052661051662051662051667050665050664049663051663051664052666052667051668050666050665050664051664052666052667051668050672050671050670050669051669052671051670052671051674050672050671050670051670051670052671052672050674050673050672050671050672052671052672051674050678050678050677049675051674052674052675051677050678049678049678050678050678051677052679052680051681050681049678049678050678052679052680052681)))
 (.node 2 (.node 1 (.leaf 51682049681050681049678050678052680052681051681051688050688050687050684051684052684052687052688051689051688050688050687051685052687052688051689052692050693050692051690052691052691052692052693052693049694050693050692051690052692052693052694051695049694049694050693052692052693052694052695052695050696049694049694052693052694052695053695050698050698050697050696052695053695052695052696052699050699050698050697052696052695052696052697051700050700050699050698050698052696052697052700050701050701050700050699052699052697052700052701050702050703049702050701050701052701051702051702051707050707049705049704051703051704053705052707051708050708050707049705051704053705052707052708051711050711050710050709050708052709052710052711051712050712050711050710050708052710052711051712051715000000000000000000050713051712052714052715000000000000000000000000050713052714052715051716000000000000000000000000000000000000000000000000000000000000000000000000000000000000000000000000000000000000000000000000000000000000000000000000000000000000000000000000000000000000000000000000053040051042052039052038052038053038054039053040053043051042052041051042053040053040054041053042053043051043051042052041052041054041053042053043052050051050051049052046052046052047054048053048051051050051051050051049052047054048053048053049053052051051050051050051051051053049054050053051053052051052051051050051051051054050053051053052051059050059051059051058051058052057053057054059051059051061050059051059051058053057054059054059051061050061051061050059051059054059054059053060)
 (.leaf 51061050062050061051061051059054059053060052062051064051063050062050062051061052062053062054065051066050065051063050062052062053062054065053064051066050065050065051063051064054065053064054066051067051066050065050065051066053064054066054066051068051067051066050065051066054066054066052068051070051069051068051067051068052068054069054070052075051075051074051071052071052072053072053073052079050078051078051077051076053077053078053079052080050078050078051078053078053078053079053080051082051082051081051080052080053080053081053082053083051083051082051081052081053081053082053083053098051099051096052095052095053095053096053097053098051100051099051096052096053096053097053098051101050101051100051099053098053097053098053101051101051102050101051100053098053098053101053102051103051103051102050101051101053101053102052103052104051104051103051102051101053102052103053104052107051107051106051105051103052104053106053107051117051117051116050116051116052115052118052118051119051121051118051117051117052118053118053121052122052122051121051118051118053118053121054120052123052122052122051121051119053121054120053123051125050125051125050124053123053124053125053126053126051125050125051125053124053125053126054127053130051129052128052127053127054127053128053129053131051131051130051129053130053129054131053131052137051137051136051133052133054133054135053135052138051138051137051136052134054135053135054136051142051142051141051140051139054139054140054140051143051144051143051142051142054140054141053142053144052145051144051143053142054141053142054143))
 (.node 1 (.leaf 53144051146052145051144051143053142054143053146052154051154051153051152051152053150052151053152051154051155051154051153051152052151053152053155052158050157050157051156051155052155053157052158052159051157050157050157053157053157052158052158052163050162051160050159051161052159052162053163051171051171051170051169051169054168053168053171052172052172051171051170051169053168053171054172052173052173052172051171051171053171054172054172000000052180051179052176000000053178000000000000000000000000052180051179000000000000000000000000000000000000000000000000000000000000000000000000000000000000000000000000000000000000000000000000000000000000000000000000000000000000000000000000000000051187000000000000000000000000000000000000052191051189052188051187000000000000000000000000000000052191051189052188052188000000000000000000000000052193051193052191000000000000000000000000000000051194052193052193000000000000000000000000000000000000051194052193000000000000000000000000000000000000000000051194000000000000000000000000000000000000000000000000000000000000000000000000000000000000000000000000000000000000000000000000000000000000000000000000000000000000000000000000000000000000000000000000000000000000000000000000000000000000000000000000000000000000000000000000000000000000000000000000000000000000000000000000000000052215000000000000000000000000000000000000051219050219050218050217000000000000054218054218052221050219050219050218052217054218054218054220052222052222050219050219051219054218054220054221000000051223050223052222000000000000000000000000)
 (.leaf 53227051228051225051224052224000000000000000000052229051229051228051225052225000000000000054229000000000000051229051228053227000000054229053230000000000000000000000000000000053230000000000000000000000000000000000000000000000000000000000000000000000000000000000000000000000000000000000000053260051259000000000000000000000000000000053259053260051260051259000000052258000000053259053260053261051261051260051259053260053259053260054261053263051262051261051260053260053260054261053262051263051263051262051261053261054261053262053263051264051264051263051262053263053262053263053264051265051265051264051263051263053263053264053265051268051268051267051266051267052266052267052269053271051270051269051268051268052269052269053272053273051273051270051269052269052269053272054272052274051274051273051270053271053272054272054273053274051275051274051273053273054272054273053275000000051277051276051275053274053275000000000000000000000000000000051277000000000000000000000000000000000000000000000000000000000000000000000000000000000000000000000000000000000000000000000000000000051315000000000000000000000000000000000000000000052317051315000000000000000000000000000000053323051321051320052319000000000000000000000000000000052323051321051320052320000000000000000000000000000000000000000000000000000000000000000000000000000000000000000000000000000000000000000000000000000000000000000000000000000000000000000000000000000000000000000000000000000000000000000000000000000000000000000000000000000000000000053380000000000000000000000000000000000000053380053381))))
 (.node 4 (.node 2 (.node 1 (.leaf 52386051384051383051382052382053382053385053386053386050385051384051383052383053385053386053387053389052389051388050385053386053387053388053389052392051392052391051390053389053390053391053392053397052397051396052394052393053395054395000000053398051398052397051396053396054395000000000000052400052399052399051398053398000000000000000000000000000000000000051401000000000000000000000000000000000000000000000000000000000000000000052405051407000000000000000000000000052405052406053407051408051408000000000000052406052406053407053408051410050410051409051408051408053408053411054412052413051411050410051409052409053411054412054412052414050413051411050410051410054412054412054413053416051415051414051413053414054415054415054415053418051416051415051414053416054415054415053416053418051417051416051415053416054415053416053419053419051418051417051416053418053416053419054420053420051419051418051417053418053419054420053419052422051422051419051418053419054420053419053420053422051423051422051419053420053419053420053421051424050424051424051423053422053421053424054424052427051427052426050424051424054424053426053427000000000000000000000000052430053430052431054434000000000000000000000000051432052431054434054434000000000000000000000000000000054434054434053436000000000000000000000000000000054434053436052437052441050440050439050438052437052437053440053441052442050440050440050439052438053440053441053442051448051446051445051444052444053444054445052447051448051448050447051446051448052447052449053448051453051452050451051452052450052451052451053452)
 (.leaf 51453051453051452050451053452052451053452052455051457050456051457051456052454052455053455052457053461051460051459051458052458053458052459054461053462052463052463051460053461054461053461053462053465051466051465052463053462053462054463053466052467051467051466051465052463054463053466052467051467050466051467051466053465053466052467052468052471051471051468050467052467052468053468053471053471051472051471051468052468053468053471053472052474052473052473051472053471053472052473052473051477051476051475050475051475054474054477054477051478051477051476051475052475054477054477052478052481051481051478051477051478052478053480053481051481051482051481051478053480053480053481053482052487051485051484051483053485053485053486053487052488052488051485051484052484053486053487053488052504051504051503050501052500052501052503052503052508050507050507051506051506054505054506052508052509051507050507050507051506054506052508052508052513051513051512050511051511052510052512052513052516050514051513050514051513052513052515052515052519000000000000050516051516052516053516053517000000000000000000000000051517053516053517052520051523050522051523051522051521053520053523053524051523051523050522051523052521053523053524052524052533051533051530051529052529053531052530053533052534051534051533051530052530052530053533053534051536051536051535050535052534053534053535053536053538052539051537051536051536053536054538053538052546051544051543050542052542052543053543053544051546051545051544051543052543053543053544053545052549051547051546051545051546053545053548053549))
 (.node 1 (.leaf 51549051548051547051546051547053548053549053550051550051550051549051548051549053550053551053552052560051558051557051556051558052556053557053558051559051559051558051557052557053557053558052560051564051564051563051562052562053564052563053564051565051565051564051563051564052563053564053565052577051577051574051573052573053573053574053575053578050578051577051574052574053574053575053578053580051579052578052578053579053579053580053581053582052582051579052578052578053580053581053582052583051583052582051579053580053581053582053583053588051588051587052585052584054586053587053588053588051589051588051587052585053587053588053589053590052590051589051588053588053588053589053590053591051591052590051589053588053589053590054590052593051593051592051591053591054590053592053593051614051613051612050611051613053613053614052614053626051628052625051624052624053624053625053626053629051630052627051628053626053626053627053628053629052631051630052627053628053627053628054629052632052631052631051630053629053628054629053630052640050638050637051636052636053636052637053640052641051641050638050637051637052637053640053641051645051645050646051645052643053643052644053645052650051648050647051646051646053646053647053648052651051649051648050647052647053647053648052651053655051653052652051651052651054652054653053655052656050656051653052652053654054653053655053656051657051657050656051653053655053655053656054656053659051659051658051657051657054656054658054659051659050659051659051658051657054658054659053660052661050661050659051659053659054659053660054660)
 (.leaf 51662051662050661050659051659053660054660054661052664050663050662051662051662054661053663053664051664051663050663050662051662053663053664054664052667051667051664051663051664054664052666053667052671051669051668050668051668052668052668053671051670051670051669051668051668052668053671052671051674050674051674050672052671052671052672053673051677050678051675051674052674052675053677052678052679050678050678051675052675053677052678052678052684051682050682051682051681053682054682054683051684051683051682050682051681054682054683054683052687051685051684051683051684054683054685053687052688051688051685051684052684054685053687054686052691052691051690051689051689053689053690054691052692051690052691051690053689053690054691053690052700051700052699050698052696053696053699052700051704051703051702050702051702052701053704053705053705051704051703051702052702053704053705053706052707051707051704051703051704053705053706053707052708051708051707051704053705053706053707052708052714050713050713051712051712052711052713052713000000000000000000000000051716052715053717000000000000000000000000000000000000000000000000000000000000000000000000000000000000000000000000000000000000000000000000000000000000000000000000000000000000000000000000000000000000000000000000000000000000000000000000000000000000000000000000000000000000000000000000000000000000000000000000000000000000000000000000000000000000000000000000000000000000000000000000000000000000000000054030054031000000000000000000000000000000054030054031053033000000000000000000000000000000053033055034055034)))
 (.node 2 (.node 1 (.leaf 55034055034055035000000000000000000000000000000055034055035054038054038000000000000000000000000055035054038054039054039052039052038000000054038054039055040054039054041052041053040052039054039054039055040053042052045052044053043053043053042053043053043053045054048052047052046052045052047053046053048055047054050051051051051052050053048054048054049054050052057051058052057052056053054053055055056055057054059051059051058051058052057055057054059055059054059051059051059051058053057054059055059055059052062051061051061051059054059055059054060054061054065051064052062051061052062054061054062054063054066051066051066051064054065054063054064054065054066051067051066051066053064054064054065054068052068051068051067051066054066054065054068055069054069051069051068051067054066054068055069055069054070051070051069051068052068055069055069055069052072052070051070051069054069055069055069054070052072052071052070051070054070055069054070054071053078053078051076052076053074053075053075054076052085052084053083051082053082054082054083054084052085052085052084053083053083054083054084054085054088052088053087052086053086054086054087054088054090052090052089052088054088054088054089054090052092052091052090052089053089054089054090054091053101051101053098053098053097054097054098054101053102051101051101053098053098054098054101054102052104051103052104051103052103055103055104055104053107052107052106051103052104055104054106053107052110051110052109052108052108054108054109054110053111051111051110052109054109054109054110054111)
 (.leaf 52111051111051111051110052110054110054111054112052115051116052114052113053113054113054114054115052118052116051116052114053114054114054115054116052118051117052116051116052115054115054116054117053121051119051118051117052118054117054118054119054120052122051119051118053118054118054119054122053124053123052123052122054120054122054123054124054133052133052132053131053131054131054132055133054135052134052133052132053132054132055133054134054136052138052137052134054135054134055136055136054138052139052138052137053135055136055136054137054139051139052139052138054136055136054137054138054140052141051139052139054138054137054138054139054140051142052141051139054139054138054139054140054141053142051142052141054140054139054140054141054143053144051143053142054141054141054142055143052146052147053144053144054143055143054144055146053149052149052148052147052146055146054146053148052151051152051152052151052151053150053150054151053155051154052154051152052151054151055154054155052155051155051154052154053152055154054155053156052159052160052159052158052158053157053157055159052159051161052160052159052158053157055159054161052162052162051161052160052159055159054161053161054163052164052163052162052162053161054163054164052165052166052165052164054163054164053165054164054167052168052167052166052165054164054167054168054168051169052168052167054167054167054168055169053171051171051169051169054168055169055169054171054172052172051171051169053168055169054171054172053174052174052173052172054172054172055173054174054175052175052174052173054172055173054174054175))
 (.node 1 (.leaf 53178000000052177052176052175000000000000000000000000000000000000052177053175000000000000000000000000052188000000000000000000000000000000000000000000052191052188000000000000000000000000000000000000000000052191052188000000000000000000000000000000000000000000000000000000000000000000000000000000000000000000000000000000000000000000000000000000000000000000000000000000000000000000000000000000000000000000000000000000000000000000000000000000000000000000000000000000000000000000000000000000000000000000000000000000000000000000000000054218052217000000000000000000000000000000000000054218051219052217000000000000000000000000000000054220052221051219052217054218000000000000000000054221052222052221051219054218000000000000000000000000000000052222052221054220000000000000055222000000000000000000052222054221000000055222055223000000000000000000000000000000055222055223053224000000052225052224000000000000053224000000000000000000053227052225052224000000000000000000000000053230000000052229053227000000000000000000000000000000000000000000052229054229000000000000000000000000000000000000000000000000000000000000000000000000052258000000000000000000000000000000000000052266051267051265051264053264055265055265055267052267051268051267051265053265055265055267055268052269051268051268051267052266055267055268054268052269052269051268051268052267055268054268055270053272053271052269051268052269054268055270054272000000000000000000052276000000000000000000000000000000000000000000000000000000000000000000000000000000000000000000000000000000000000000000000000)
 (.leaf 53323052320000000000000000000000000000000000000000000053323052320000000000000000000000000000000000000000000000000000000000000000000000000000000000000000000000000000000000000000000000000000000000000000000000000000000000000000000054376000000000000000000000000000000000000054376054377000000000000000000000000000000054376054377053379053385052383052382000000053381054381055382055385053386052386052383052382053382055382055385054386000000000000000000000000000000000000000000054402052405000000000000000000000000054402053403054404052406052406000000000000052405054404053405054406053411052409051408051407053407055407054410054411054412051410052409051408053408054410054411054412054413052414052413051410054412054412055412054412054415053414052414052413054412055412054412054413054415053416053416053414054415054413055415054415053419053418053418053416054415054415054416055418054424051424052424053422053421054421054422054425053427052427052426051424054424054425054426055427052429052428051428052428052428055428055429054430052429051430052428051428052428055429054430055431054434000000051432052430053430055431053431054432054434000000000000051432052431053431054432055433053436000000000000000000054434054432055433054436052437000000000000000000054434055433054436055436052437052437052436000000052437055436055436053438053441052441052438052437052437053438053438054439054445052445052444052443052443053444053444054445052447051448052445052444053444053444054445054446052449051448051448052445054445054445054446055448052450052449051448051448052449055448055448054449)))))
 (.node 8 (.node 4 (.node 2 (.node 1 (.leaf 52451052450052449051448053448055448054449054452052451053452052450052449052450054449054452054453052455052454051453051453053452053453054455053455052457051457052455052454052455053455054455055457052459052461052458053458053457055457054458054461054461053461052461052458053458054458054461055461054463052463053462052463053461054461054462053464052468052467051467052467052467055465055467053469053472053471052471052468053468053469054471054472052474052475052474052473052473053471054472054473054474051475052475052474052473054472054473054474054477052475051475052475052474054473054474054475054477051477052475051475054474054474054475054476052478051478051477052475054477054475054476054477053480053480051478051477054477054476054477054480053481052481053480051478052478054477054480054481053485053485052484052483052483054483053482054483052494052494052493052492053492055493053493053495052496052496052495052494052494053495055495054496052497052497052496052495053495055495054496055499052500052499052498052497052497055499055500055500052501052500052499052498053498055500055500055501052503051502052500052499052500055500055501055503052503052504051502052500052501055501055503055503054505052505052504051502052503055503055503055504054505051506052505052504052503055503055504055506054506051506051506052505054505055504055506055506052508052508051506051506054505055506055506055507052508052509052508051506054506055506055507055508052509052510052509052508052508055507055508055508052510051511052510052509052508055508055508055510052512052512051511052510052509055508055510055511)
 (.leaf 52513052513052512051511052510055510055511055513052513051513052513052512052512055511055513055513052515052513051513052513052513055513055513053515052515052516052513051513052513055513053515053515052520000000052519051517053516053516054517054518052520052521000000052519053517054517054518055520053523052521051521052521052520055520055521055522053524051523052521051521053520055521055522054522052527052527052526052525052526053525053526053528053531052529052528052527052527053528053530055530053534052534052533052530052530053531054533054534054538052537051536052535053535053536054536055537052543052542052541052540053540054540055542055543053548051547051546052546053544054544053545054548053549052549051547051546053545053545054548054549052555052554052553052552052553053552055554054556052556051558052555052554052555054556054557053557054562052561052560051559052560053559054560054561053564052562052561052560053560054560054561055563052563051564052562052561054562054561055563054563053568052566051565051564053564053565055565054568053569052567052566051565053565055565054568053568053579053579053578052577053575054577053576054579053588053588052585052584054586053585053587053587052599052600052599052598052597054596054597053599052600052602052601052600052599053599053599054600052601052603052602052601052600053599054600054601052602052604052603052602052600054600054601053603052607052607052606052605053603053604053606053606052608052609052608052607052607053606055608053608052617052616052615052614052614053615053615053617054634052634052633053633053632054632054633054634))
 (.node 1 (.leaf 52637051637052636052635053635054635054636055637053640052640051637052636053636054636055637054638053641052641052640051637052637055637054638053641052644052646052643051643052644053643053643054646054652051650052651052650053648053648053649054652054652052651051650052651052651053649054652054653054653053654052651051650054652054652054653054654053655053655053654052651054652054653054654055655054659053659051657051657054656054655054656055659053660051659053659051657054658054656055659054660053663051662051662052661054660054661054662055663053664052664051662051662054661054662055663054664053668051668052667052666052666054664054665054666053671052671051668051668052668053668053668054669052671051670052671051668052668053668054669054672052675052674051674052672052672053672054673053676053677052675052674051674053673054673053676053676054679052680052679051677052678055678054679054680052681052681052680052679052678054679054680055681053682051681052681052680054679054680055681055681054682051681051681052681052681055681055681054683054683051684052684051681054682054683054684055685054685052684051684052684054683054684055685054686053687052687052684051684054683055685054686000000054686052688052687052684054685054686000000000000053690053689051689052688054686000000000000000000054692052693052692052691054691054691054692054693054694052694052693052692053690054692054693055693054694052695052694052693054692054693055693054693054694053695052695052694054694055693054693055694053699052697052696052695053695054695054696054697052700052700052697052696053696054696054697054698)
 (.leaf 52701051702052701052700052700054698053699053702052701051702051702052701053699053699053702054703052709052710052709052708052708054708054709055710052711051712052711052710052709055710054709054710052713051712051712052711052710054709054710054713052713052714051712051712052711054710054713000000052714052715052714051712052713054713000000000000052715051716052715052714052713000000000000000000053717052717051716052715052714000000000000054715000000000000052717051716052715000000054715054718000000000000000000000000000000054718000000000000055034000000000000000000054031054032055032055033055034000000000000000000053033055032055033056034055035000000000000000000055034055033056034055035054038000000000000000000055034056034055035055036054039054038000000000000055035055035055036054038055040053040054039053038055040055040056039055040053043053042054041053040055040055040055041054043053045052045053043053042053043054043056044056044053046052047052045053043053043056044056044055045053048052047052047052045053045056044055045056047055047054048052047052047053046055045056047055047053053053053053052053051053051054052054052056055053055053054053053053052054052054052056055055056055056052055053054053053053053056055055056056057055057052057052055053054053055055056056057056058054059053057052057052055055056056057056058056058055059054059053057052057055057056058056058056059055069052068054066054066054065054065055068055069054075053073053072052072054071054072055074054075053075053074053073053072053073055074054075055076053079053080053079053078054076055078055079054079)))
 (.node 2 (.node 1 (.leaf 55097053096053095053094054094055094055095055096054101053101053098053097054097056097055098055099054102053102053101053098054098055098055099056100055104052104053104052103055103055103055104055105054106053106052104053104055104055104055105056106053107053107053106052104055104055105056106054106054109054109052108053107053107054106056108055109054123053123054120053121054119054120055120054123054127054127053126053125055124056124056124056125055129053129053128054127055129055129055130056131055131054131053129053128055129055130056131056131055146052146053146054143055143055143055144055147053148053149053148052146055146055147055148055149054150053150053149053148054146055148055149055150053150052151053150053149053148055149055150054150055154053152052151053150053150055152055153055154054155053155053152052151054151055153055154054154053157052158052158053157053156054156055158055159055159052159052158052158053157055158055159055160054161052159052159052158053157055159055160055161053161052162052159052159055159055160055161055162054164054163053163052162053161055162055163054163054167054167052165053165053165056165055166056167054168054167054167052165054164055166056167055168054171053171053168054168055169056168055170055171054172054172053171053168055169055170055171055172054175054175053174054172055173055173000000000000000000053178053175052175000000000000000000000000000000000000053178053175000000000000000000000000000000000000000000053178000000000000000000000000000000000000000000000000000000000000000000000000000000000000000000000000000000000000000000000000)
 (.leaf 56205000000000000000000000000000000000000000000000000000000054218000000000000000000000000000000000000000000054220054218054218000000000000000000000000055223000000000000054221000000000000000000000000053224000000000000000000055222000000000000000000000000000000000000000000055223000000000000000000000000000000000000000000053224000000000000000000000000000000000000000000000000000000000000000000000000054229000000000000000000000000000000000000000000053230054229000000000000000000000000000000000000000000000000053230000000000000000000000000000000053259000000000000000000000000000000000000055263053262054261053260054260000000055261055262055265053264053263053262055263055262056264056264055265053265053264053263054263056264056264056266055267052266053265053264055265056264056266056267055268052267052266053265055265056266056267055267055270052269052269052267055268055267056269056270054272053272052269052269054268056269056270056272054273054272053272052269055270056270056272056272000000000000000000053275000000000000000000000000000000000000000000000000000000000000000000000000000000000000000000000000000000000000000000055372000000000000000000000000000000000000055372055373000000000000000000000000000000055372055373055374000000000000000000000000000000055373055374055377053380053380000000000000053379055380055381056381))
 (.node 1 (.leaf 55382053382053381053380053380056381055381056383055385053385053382053381054381055381056383056385054386053386053385053382055382056383056385055386054387053387053386053385055385056385055386055387054394053394054393053392055392056392055393055394000000000000000000054395000000000000000000000000000000000000000000000000000000000000000000000000053403000000000000000000000000000000055402056404055407053407052406052405053405056406056407056407054410053408053407052406054406056407056407055408054411053411053408053407055407056407055408056410055415054415054415054413054412056413056414055416055418053419053416054415054415056417056417055419055419054420053419053416054416056417055419056419054425054424053424053421054421055421054422055425055429052428052428053427055427055427055428056429054430052429052428052428055428055428056429056430055431052429052429052428055429056429056430056431053431052431053430052429055431056431056431056432055433054434054434052431053431056432055434056434055436052437053436054434055433056434055436055437053438052437052437052437055436055437055438055439053438053440052437052437055436055438055439054439054442053442053441053440053438054439055439055440053442053443053442053441054439055439055440054443053444053444052443052443054442055444055445054445055448053448052449052447054446054447055447055448054452052451052450053448055448055448055449055450054453052451052451052450054449055449055450054452053455052455052455053452053453054453055453054455055457052457053455052455053455054455056456056456055457053457052457053455054455056456056456055457)
 (.leaf 54461052459053458053457055457055457055458055459055461054461052459053458054458055458055459055460055465053466054463053462054462055464055465056464055465052467053466054463053464055465056464055465055467052468052467053466055465056464055465055468053469052468052468052467055465055465055468056469053469053468052468052468055467055468056469055468054471053471053468052468053469056469055468055469054472053472053471053468053469055468055469055472054480053480052478054477054476055476055477055480054481053481053480052478054477055477055480055481053482053484052483053482055481055482055483054483054487053487053486053485054483055483054484056487054488053488053487053486054484054484056487055488053490053491052489053489053488054488055490055491055493053492052492052491054490054491054491055492053493052494053492052492054491054491055492055493053495052494052494053492055493055492055493056496055495053495052494052494053493055493056496056496055499052497052496053495055495056496055496056497055500053498052497052496054496055496056497055500055500052500053498052497055499056497055500056501055501052501052500053498055500055500056501055500055503052503052501052500055500056501055500056502055503052503052503052501055501055500056502056504055504054505052503052503055503056502056504056504055506054505054505052503055503056504056504056504055508052508052508054506055506055507056508056508055508052509052508052508055507056508056508056508055510052510052509052508055508056508056508055511055511052512052510052509055508056508055511056511055513052513052512052510055510055511056511056512))))
 (.node 4 (.node 2 (.node 1 (.leaf 55513052513052513052512055511056511056512056512053515052515052513052513055513056512056512055513053515052515052515052513055513056512055513055514053515052516052515052515053515055513055514055515053516053516052516052515053515055514055515055516055520052520052520053517054517056518056518056519055521053520052520052520054518056518056519055522055522053523053520052520055520056519055522056522053525052525052524053524054522055522056523056524053525052526052525052524054523056523056524055525053526052527052526052525053525056524055525055526053528052527052527052526053525055525055526056527053530053528052527052527053526055526056527055530055530053531053528052527053528056527055530055531053531052530053531053528053530055530055531055532054533053533052530053531055530055531055532054532053536053535053534052534053535054533055536055537055542053541053540053539054539055539055542055543055543052543053541053540054540055542055543056542055543053543052543053541055542055543056542055543053545053545053544053543055543055543055544055547054548053548053545053544054544055544055547056547054549053549053548053545053545055547056547055547053551053552053551053550053550055548056550056551055553053553053552053551054549056550056551056552053552052553053553053552053551056551056552055554055554053555052553053553055553056552055554056554054556052555053555052553053552055554056554056555054557053557052555053555055554056554056555055555053559053558053557052556053557055556056557056558053559052560053558053557055557056557056558056560053565053564052563053564055563054562055563055564)
 (.leaf 55565053565053564052563054563055563055564055565054568053568053565053564053565055564055565055566053568053569053568053565055565055565055566056569054571052569052569053569053568056569056569055571053571053570052569052569055570056569055571054571053574053572053571053570053571054571055573055574053574053573053572053571054571055573055574055575054576053574053573053572053574055574055575054576054577053575053574053573053574055575054576055575053579053580053579053578053576055576055579055580054582053582053581053580053579055580055581055582054591054590053590053589054587054588055588054591054594053594053593053592055591055592056593055592053595053595053594053593054591056593055592055595053595053597053596053595053595055595054594055595053599052600052599053597054597055597054598056600053603052602052601052600054600056600054603054603053606052605053603052602053603054603055605055606053606052607052605053603053604055605055606055607055608052607052607052605053606055606055607055608053608052608052607052607053606055607055608056609053609053610052608052607055608055608056609056609053612052612053611053610053609056609055611056611053612053613052612053611054609055611056611055613054614053614053613052612053612056611055613056613054615052614053614053613053612055613056613054614053617052617053615052614053615056616054617055618053623053622053621053620054620055620055621055622053623053623053622053621054621055621055622055625053626053624053623053622053623055622055625055626054627053625053624053623053623055625055626054627053627053626053625053624053626055626054627054627))
 (.node 1 (.leaf 55637052637053636053635054635055635055636055637053641053641053640052637055637055637055638055639053641053642053641053640054638055638055639056641053643053643053642053641053641055639056641055641053643052644053643053642053641056641055641055644053643053643052644053643053643055641055644054645054646052644053643052644053643055644054645054645054652054652052651053648053648054649055651055652054653054652054652052651053649055651055652054652055659054659054658054656054655056657056657055659053665054664053664053663055663055661055664054664053668052668053668053667054665054666054666054668054672052671053671052668053668054668055669054672053672052671052671053671054669055669054672054672053676052675053673052672053672055672056674056675053676053677052675053673054673056674056675055677055678052678053677052675053676056675055677056677054679052678052678053677053676055677056677056678054680054679052678052678055678056677056678055680054683054682053682052681055681055681056680055681000000053689054686053687000000000000000000000000000000053690053689054686000000000000000000000000054691054691053690053689000000000000000000000000054692053690054691053690000000000000000000055690053699053699052700053699054697055697054698056700053702052701053699052700054698054698056700056700054703052701052701053699053699056700056700054702053706053706053705053704053703055704056705055706054708052708053707053706053706055706055707056707054713052713052711052710054709000000000000000000000000052713052713052711054710000000000000000000000000052715052714052713000000000000000000000000)
 (.leaf 54718000000053717052715000000000000000000000000000000000000000000053717054715000000000000000000000000000000000000000000000000000000000000000000000000000000000000000000000000000000000000056028054032054031054030000000055029057029056030056031054038054039054038055035055035056035056036056037055040055040054039054038055036056036056037056038056039054039055040054039054038056037056038057039054043053043053042055040055040056040056041056042056044053043053043053042055041056041056042056043056044053045053043053043054043056042056043056044056047053048053046053045056044056044056045056046056048054048055047053048056047056046056047056048054050054049054048055047055047056047056048056049054052053051054050054049054050056049055050056053054052054052053051054050054051055050056053055053055056053055053053054052054052055053056055056056056057055056053055053053056055056055056056056057056059055059054059055057056058056058056059057058054062054061054060055059055059056059057060056061054065054063054062054061054062056061056062056063054065054064054063054062055062056062056063056066054065054065054064054063054065056063056066056067055068054068054065054064054065056066056067055067054072054071054070055069055069057071057071057071055074053073054071054070055070057071057071055074054075054075053073054071054072057071055074057074054077053075053075054075054075057074057074056077055079055078054076053075054077056077056078055079054085054084054083054082055082055083056083056084054085054085054084054083055083056083056084056087054091054091054090054089055089056089056090056091)))
 (.node 2 (.node 1 (.leaf 56100054102054101054098055098057100057100057101055103055103054102054101055099057100057101056103055104055104055103054102056100057101056103057103056108054108053107054106056106057106056107056108055109054109054108053107054106056107056108056109055110054110054109054108056108056108056109057109054120054119054118054117055117056117056118056119054123054123054122054119054120056119056122056123054123054124054123054122055120056122056123056124056124055124054124054123054123056123056124057123056125054127054126055124056124057123056124057126055128054128054127054126056124056124057126056128055129055129054128054127056125057126056128057129056133054132054131055131056131057130056131056132056135054134055133054132056133056132056133056134056135055136054134055133056133056133056134056135055147055146054144055143055143056143056144056145055166054164053165054164054163056164057165056166056167054167054164053165056165057165056166056167056168055169054168054167056167056167056168056169000000000000054175054174000000000000000000000000000000000000000000054175000000000000000000000000000000000000000000000000000000000000000000000000000000000000000000000000000000000000000000000000000000000000000000000000000000000000000000000000000000000000000000000000000000000000000000000000000000000000000000000000000000000000000000000000000000000000000000000000000000000000000000000000000000000000000000000000000000000000000000000000000000000000000000000000000000000000000000000000056205000000000000000000000000000000000000056204000000000000000000000000000000000000056204056205)
 (.leaf 56205056204056205056206000000000000000000000000000000056205056206055208000000000000000000000000000000055208055208056209000000000000000000000000000000056209055210056211000000000000000000000000000000055210056211057213000000000000000000000000000000056211057213000000000000000000000000000000000000057213000000000000000000055222000000000000000000000000000000000000000000000000053224055223000000000000000000000000000000000000000000053224000000000000000000000000000000000000000000000000000000000000000000000000000000000000000000000000000000000000000000000000000000000000000000000000000000000000000000000000000000000000000000000000000000000000000000000000000000000000000000000000000000000000000000000000000000054260000000000000000000000000000000000000056264055265054263055263055262056262056263056264056267055267055265055265056264056264057266057267056270055270054268055268055267057268057269057270056272054273054272055270056270057270056270056273054273054274054273054272056272056270056273056274000000000000054274054273056272056273056274000000000000000000000000054274054273056274000000000000000000000000000000000000000000000000000000000000000000000000000000000000000000000000000000000000000000000000000000000000000000000000000000000000000000000000000000000000000000000000000000000000000000000000000000000000000000000000000000000000000000000000000000000000000000000000000000000000000000000000000000000000000000000000000000056370000000000000000000000000000000000000056370056371055377000000000000000000055373056373056376056377))
 (.node 1 (.leaf 56378054376000000000000055374056376056377056378055380053379054377054376056378056378056379057380055381054379053379054377054378056379057380056381056385055385055382054381055381057382057384056385055386054386055385055382056383057384056385056386056392055392054391054390056390055389056391056392055393055392055392054391054391056391056392057392000000000000000000000000000000000000000000000000000000000000000000000000000000000000000000000000056404053403054402000000000000000000056402056403054405054404053403054402055402056402056403056406056406053405054404053403056404056403056406057406056407054406053405054404054405056406057406057407056410054411054410055407056407057408056408057411056411054412054411054410055408056408057411057411056414054413054412055412055411057411057413056413055416055415054413054412056413057413056413057415055419055418054416054415056417057416056416056417056422054420054419055419056419056418057421057421054422054422054421054420056422057421056421057423055425054425054422054421055421056421057423057423056425054426054425054422054422057423057423056426055428055428055427054426056425056426056427056428056431055431055431054430056430056430057431057431055434054432053431055431056431057431057431056432055437055436054436055433056434056433056434057437055444054442053442054442055440055441056441056444055445053444054442053442054443056441056444056445054447054446054445053444054445055445055445057447054452054453054452054449055449055450056450056451054453053453054453054452055450056450056451056452054455053455054455053453054453056452056453056454)
 (.leaf 56456054455053455054455055453056453056454057455056456055457054455053455054455056454057455056456055464054462054461055461055460056460056461056462055465053464054462054461056462056461056462056463055468055467055465055465056464056464056465056466055472054472054471053469055468056468056469056470054472053471054472054471055469056469056470057472054474054474054473054472054473055473056473056474056475054475054474054473054473056473056474056475055480054480054477054476055476056476056477057480055481054481054480054477055477056477057480055481056487054487054484054483055483056483055484057486055488054488054487054484054484055484057486056488054488053488054488054487056487057486056488055488055491053490054490053488054488055488056488057489056497055499054496055495056496056497057497057498055500055500055499054496055496057497057498057498056504055503055503055501055500056502057503057503055507055506055506055504056504057503057504057506055511055510055508055508056508057508057508056509056512055513055513055511056511056510056511056512056518054517053516053515055515055515057516056517056518054518054517053516055516057516056517056518056519055520054518054517056518056517056518057520056523054523054522055522056522056521057522057523056524053525054523054522055522057522057523057524056527053528053526053525055525057525056526056527055530053530053528053526055526056526056527056528055531055530053530053528056527056527056528056531054533053535054534054533054532055532056532056535055536054534053535054534055532056532056535057536055537053536054534053535054533056535057536056537))))))
 (.node 16 (.node 8 (.node 4 (.node 2 (.node 1 (.leaf 55542054540054539054538055538056538056539056540055543055542054540054539055539056539056540056541055547053545054544055543055543055544055544056545056547054548053545054544055544055544056545056546056550054549053550054549055547056547056548056549056551053551054549053550055548056548056549056550056552055553053551054549056550056549056550056551055554053552055553053551056551056550056551056552056558053559055557053557055556056556056557056558056560053559053559055557056557056557056558056559055562054560053559053559056558056558056559056560054562054561054560053559056560056559056560057562056569053568054568055565055565056565056566056569056569055570053568054568055566056566056569056570055571054571055570053568056569056569056570056571055574053574054571053571054571055570056573056574055579054579053576054577055575055576056578056579055580053579054579053576055576056578056579055579055585053584054584053582054582055582056584056585054585053585053584054584055582056584056585055585055588053587053587053585054585055585056585056588054591054591053590054587054588055588057589055590055595053595054594054591056593057593056594055595054594054594053595054594055592056594055595055595054598053599054597054596055596056596056597056600056600053599053599054597055597056597056600057601056600054600053599053599054598056600057601056600054603054601054600053599056600057601056600056601054603053603054601054600056600056600056601056602055605053604053603054601054603056601056602057605055606053606053604053603054603056602057605055606055611054609053609053608056609057609056610056611)
 (.leaf 56611053612054609053609056609056610056611056612056613054614053612053612056611056612057613056612056616053615054615054614056613056612056613057616054617053615053615054615054614056613057616056617055618053617053615053615056616057616056617055618054618053617053617053615054617056617055618056619055625053623053623054621055621056621056624056625055626053626053623053623055622056624056625055626055629053627053627054627054627056627055628056629054630054630054629054628054630056630055631056630056641053641053641054638055638056638057641057641055644053643053643053641056641057641056643057644054645053643053643053643055641056643057644057645054646053646054646053643054645057645057645057646054647053648053646054646054645057645057646057647054648053648053648053646054646057646057647057647054649053648053648053648054647057647057647056650055651053649053648053648054648057647056650056651055652054652053649053648054649056650056651056652055655055655054654054653054652057653056654055654055659055659054656054655056657055656056658056659055660054660055659054656056657056658056659055660055664054664055663054662054661055661055661056662054666054665054664053665054664056665056666055666054668053668054666054665054666055666055666056667054672054672054669053668054668055668056669056672054672053672054672054669055669056669056672056673056674054673053672053672054672056673000000000000056675053676054673053672055672000000000000000000055677053676053676054673056674000000000000000000056677055678053676053676056675000000000000000000055681055681054680054679056678000000000000000000))
 (.node 1 (.leaf 55686054686055685054684055682057684000000000000000000000000000000000000000000000000000000055689054698054698054697054696055696056696057698056698056700053699054698054697055697057698056698057700056700053702053699054698054698056698057700057700054702054703053702053699056700057700057700057702055704053703054703053702056700057700057702056704056705054705053703054703054702057702056704056705055707054707053706054705056705056705056706000000055710055710054709054708056707000000000000000000000000054713054710054709000000000000000000000000000000000000054713054710000000000000000000000000000000000000000000054713000000000000000000000000000000054718054715000000000000000000000000000000000000000000054718054715000000000000000000000000000000000000000000054718000000000000000000000000000000000000000000000000000000000000000000000000057029055029000000000000000000000000000000057029055033055033055032054032056031058032057032057033055050054051054050056048056048057048057049057050056053054052054051054050056049057049057050057051055053054052054052054051055050057050057051057054056056055056056055054052055053057054057055057056057060055060055059056059057058000000000000057060056066054065054065055062056062000000000000058065056067054065054065054065056063000000058065000000056070056069055069055068055067000000057067057070057071054072055070055069057071058070057070057071055074055074054072055070057071057070057071057072057074054075055074054072057071057071057072057073057074055076054075055074055074057072057073057074056077054077055076054075057074057073057074057075)
 (.leaf 56078055078054077055076057074057074057075057076055080054080054079055079055079056078057080056080055083055082055081054080056080056081057081057082056087054085054085055083056083058084058085058085055087055086054085054085056084058085058085056087055088055088055087055086055087056087056087056090055094055093055092054091056091057093056092058094057100055098056097055096056096058098058099058100057100055099055098056097056097058099058100057101056103055103056100055099057100057101058101057101057103055104055103056100057101058101057101058103057106056106055105055104057103058103058104058104056112055112055111055110057109057110057111057112056116055114055113054113055113057114057115057116055116055115055114055113056113057115057116056117056122055120054120055118056118056118057119057120056123054123055120054120056119057119057120057121056128055128056125056124056124057124057125057126057129055129055128056125057126057125057126057127056131056131055130055129057129057127057128057129057138055137055136056135056135058135057136057137057139055138055137055136056136057136057137058138055151055152054150055150055149057150057151057152056153055153055152054150056149057151057152057153055154055154055153055152055151057152057153056153055155055156054154055154055154056153056155056155055157055158054156055156055155056155056157057156057160055161055160055159055158056158057158057161056162055162055161055160056158057158057161057162056163055163055162055161057160057161057162057163056172055172055171055170057170058170057171057172000000000000000000055173000000000000000000000000)))
 (.node 2 (.node 1 (.leaf 55208000000000000000000056205057205057206058208055208000000000000000000056206057206058208057208055210000000000000000000055208057208057209057210057213000000000000000000055210057210057211057212000000000000000000000000056211057211057212058214000000000000000000000000057213057212058214057216000000000000000000000000000000058214057216000000000000000000000000000000000000057216000000000000000000000000000000000000000000000000000000000000000000000000000000000000000000000000000000000000000000000000000000000000000000000000000000000000000000000000000000000000000000000000000000000000000000000000000000000000000000000000000000000000000000055261000000000000000000000000000000000000057266056266056264056264056263000000000000000000057269056269055267056267057267000000000000000000056273056272056272056270057270057269057270057273000000000000000000000000000000000000000000000000000000000000000000000000000000000000000000000000000000000000000000000000000000000000000000000000000000000000000000000000000000000000000000000000000000000000000000000000000000000000000000000000056376055374055373055372056372057372057373057374056377055377055374055373056373057373057374057375057382056381055381055380057380057380058381058381057384056383055381056381057382058381058383058384056386055386056385056383057384058384057385058385055388055389055388055387057387058386057388058389)
 (.leaf 56391054391056390055389055388058389058389057391000000000000055394055393057392057393057394000000057406056406054405056404056403057403057404057405057411056410055408056407057408057407057408057411057413056413055411056411057411057412058413058413057416056417055416056414056413057415057416057417057421056422055421056419056418057420058421058421057423055425054422055421056421000000057424057425056426056425055425054422057423057424057425058425057437055437055436056434056433057433058435057437055437055438055437055436056434058435057437056438055438055439055438055437057437057437056438056438055441055440055439054439056438056438057439057442056444055444054443055440055441057442057443058444056445055445055444054443056441057443058444057445057447054447055445054445055445056445057445057446055448055447054447055445055445057445057446057447055450055448055447054447057447057446057447057448055450055449055448055447055448057447057448057449057455056456054455055453056453057453057454057455055458055457056456056456057455057455057456057457056460055458055457056456056456057456057457057460055460055459055458055457055458057457057460057461055473054473054472055472056470056471057471058473057480055480055477055476056476058477057477057480055481055481055480055477056477057477057480057481057482055482055481055480057480057480057481058481055483055483055482055481055481057481058481057483055483054483055483055482057482058481057483058484055484054484055483054483055483058484058484058486057486056487054484055483056483058484058486058486056488055488056487054484055484058486058486057486))
 (.node 1 (.leaf 57489055491055490054488055488058489057490058490056492054491055491055490056488057490058490058491056493054491054491055491057489058490058491057493057498055500056497055496057497057496057497057498057499056501055500056497057498057497057498057499056502055500056501055500057498057498057499057500057503056504056504056502057503057501057502057503057506055507056504056504057503057503057504057505057507056508055507056504057504057504057505057506057508056508056508055507057506057505057506057507055514055514055513056512056512058513057513057514055515055515055514055513056513057513057514057515057516055516055515055514055514057514057515057516057520055522056519056518056518057518057519057520057525055525056524056523057523057523057524057525056531055531055530056527056527057527057528057529056532055532055531055530056528057528057529058531056535054533055532054532055532058532058533057535057536055536054533055532056532058533057535057536057536054537055537055536057536057536057537058538055544055543056542055543056541057541056542057545055544055544055543056542056542056542057545056545056570056569056569055566056566057566056567057570056574055574055573054571055570057572057573057574056579055579055576055575055576057575057578056578056582055582055581055580055579056579056579057580055582054582055582055581056579056579057580057583056585055585055582054582055582057583057584057585056588055588055587054585055585056585058587057588055588054588055588055587056585058587057588057589055590054591055588054588055588057589057590057591057591055592054591055588057589057590057591058592)
 (.leaf 57593056593055592054591055590057591058592057593056594055592056593055592057591058592057593058593056600054598055597055596056596057598058598057600057601056600054598055597056597058598057600057601057605055605054603054603056601058602057604057605055606055606055605054603056602057604057605058606057606055607055606055605057605057605058606058607055608055608055607055606055606058606058607058608057609056609055608055607057606058607058608058609056610056609056609055608055608058608058609057610057616056616054614056613056612057614057615057616056617054617056616054614056613057615057616057617056625055625055622055621056621056622058624057625056630054630055629054627055628057628057629057630057635055634055633055632056632056632057633057634057636055636055635055634057635057634058635057636057641055639055638055637056637057637057638057641057641056641055639055638056638057638057641058641057644055644055641056641057641058641057641057644057645054645054645055644057644057644058645058645057646054646054645054645057645058645058645058646057647054647054646054645057645058645058646058647057647054648054647054646057646058646058647058648056650054649054648054647057647058647058648058649056651055651054649054648057647058648058649057651055654055655055654054652057653058652056654057655055656056657055656055655055654057655056654057657056658056657056657055656057656056654057657056657055661054661055661055660055660056659057659056661056665054664055664055661055661057661057662057665056666055664054664055664056662057662057665056665056672054672055669054668055668056668058671057672))))
 (.node 4 (.node 2 (.node 1 (.leaf 56673054672054672055669056669058671057672000000000000056677055677056675000000000000000000000000000000055681055680056678000000000000000000057679057684055682055681056680056680057682000000000000000000055683055682055681056681000000000000000000000000055686055683055682057684000000000000000000000000000000055686055683000000000000000000000000000000000000000000055686000000000000000000000000000000000000000000000000000000000000000000057687055689000000000000000000000000000000057687057690055689000000000000000000000000057687057690056691057698055697055696055695056695057697057698058698057700056700054698055697057698058698057698058700057702054702056700056700057700058700058700057701056704055704054702056700057700058700057701057704056705056705055704054702057702057701057704000000000000055710055709056707000000000000000000000000000000000000055710055709000000000000000000000000000000000000000000055710000000000000000000000000000000000000000000000000000000000000000000000000000000056028000000000000000000000000000000000000058032056031056030057029057029058029058030058031058035056034055033056032057032058032058035059035058035056035056034055033057033058035059035058035058037056037056036056035058035058035058036058037056040056040057039056038057038057038058041057041056042056042056041056040056040057041058043058044057045056043056042056041057041058043058044057045056045056044056043056042056042058044057045059045056047056047056046056045056045057045057046058047057054055053056053055050057050058050058051059052057055056055055053056053057051058051059052058055)
 (.leaf 56059056058056057058056000000000000000000000000056059057058056059000000000000000000000000000000056062056061057060057060000000058063000000000000056063056062056061057061058063000000000000058065056066056063056062000000000000000000000000000000056067056066056063000000000000000000000000000000055067056067056066058065000000000000000000057070056070056069055067000000000000000000058068058070057071056070056069057067000000058068059070056078055079056078056077057075057076057076058077057080055079055079056078057076057076058077058080056080055080055079055079056078058077058080059080058084056083055083057082057081057082058084059084058085056084056083055083057082058084059084058084058085056087056084056083058084059084058084058085056087055087056087056084058085058084058085058088056087055088055087056087058085058085058088058089056090055088055088055087056087058088058089057089056092056094056091056090057090057091057091058094058098056096056095055094057094059095058095058098058099056097056096056095057095058095058098058099058100057100056097056096058098058098058099058100057101057100057100056097058099058099058100059100058103057103056103057101058101059101058103059103058104057106056105057103058103059103059105059105057107056107057106056105058104059105059105057107057110057109056109056108056108059108058109059110056118056117056116055116056117058117058118058119056118056118056117056116057116058118058119057120058135056135056134056133056134058133057134058135056141056141056140056139058139059140058140058141058143056143056142056141056141058141058142058143))
 (.node 1 (.leaf 56145056144056143056142057142058142058143058144057147056145056144056143058143058143058144058147056147056146056145056144056145058144058147058148057150055149056149056146056147058148058149057149056155055155055154055154056153059153059153058156056157056157055155055154056155059153058156058157057161057160056158055158056158058159058160058161058205056204000000000000000000000000000000058204058208055208056206056205057205058205059206058207057216000000000000057213057212058214058215059216000000000000000000000000058214058215059216059216000000000000000000000000000000059216059216057219000000000000000000000000000000000000000000000000000000000000000000000000000000000000000000000000000000000000000000000000000000000000000000000000000000056262000000000000000000000000000000000000000000056263056262000000000000000000000000000000000000056264056263056262000000000000000000000000000000057266056264056263000000000000000000000000057273056273056270057270057269000000058272000000000000056274056273056270057270058272000000000000000000000000000000056274000000000000000000000000000000000000000000000000000000000000000000000000000000000000000000000000000000000000000000000000000000000000000000000000000000000000000000000000057378056378056377056376057374058374058377058378058379056379056378056377057375058377058378059379058381056381057380056379058379059379059380059380058383057382057382056381058381059380058382059382057385056385057384057382058383059382059383059383057388056388057387056386058385059386058387058388057391056391055389055388058389058389058390059391)
 (.leaf 57392056392056391055389058389058390059391059391057411057411056408057408057407057407059409059410057412057411057411056408057408059409059410059411057416057415056413057413058413059413000000000000057420056418056417056416058418000000058419058420058421057421056418056417058419058419058420058421058427056428056427056426058425059425059425058426057429056429056428056427057425059425058426058427058428056430056429056428058427058426058427058428058435056434056433056432057432057432059434059434057437057437056434056433057433059434059434058435056438055437057437056434058435059434058435057437056438056438055438055437056438057437058437058438057442055441056439056438056438058438059441059441057443056441055441056439057439059441059441057442056451056450055450055450057448058450058451058452056452056451056450055450057449058451058452057453057460056460055458056456057456059456058457057460057461055460056460055458057457058457057460057460056463056462056461056460056461058460058461058462057467056465056464056463057463059465059465058465057468056466056465056464057464059465058465059467056469056469056468056467056467059468059470059471056471056470056469056468057468059470059471059471058473056473055473057472057471059471059473059474058477056476056475056474057474059474058475058476057480057480056477056476058477058476058477058480057481055481057480056477057477058477058480058481058486055484056483055483058484058484059485059485058486057486055484056483058484059485059485058487058489055488056488057486058486058487059488058487057490056488055488056488057486059488058487059489)))
 (.node 2 (.node 1 (.leaf 57493056493056492057489058490058489059491059492057494056494056493056492058491059491059492059493058531056532056531056528057528059528058531058532058532055532056532056531057529058531058532058533058533056532055532056532058531058532058533058534057535056535056532055532058532058533058534058535057536057536056535056532058533058534058535059536056540056538055538057536058538058538058539057539056541056540056539056538056540057539058539058540056542056542056541056540056541058540058541058544057545055544056542056541057541058541058544057544058547056547056546056545057545057546058546058547056549056549056548056547058547058547058548058549057552056550056549056548057548058548058549057552056552056551056550056549056549058549057552057553056554056554056553056552056552057553057553058554056558056558056557056556057556059557058557059558057561056559056558056557057557058557059558058561056561056560056559056558056558059558058561059561057566056564056563056562057562059563058563058564056565056565056564056563057563058563058564058565056567056569056566056565056565058565059566058567057570056570056569056566057566059566058567058570057571056571056570056569056567058567058570059571057578056578055576056576056575057575058575057577057583055582056582056579056579058579059581059582057584056584055582056582057580059581059582058584057588056588056585055585056585058586058587058588057589055588056588056585058587058587058588057589058593056594057593057591058592058592059593059593056596056595055595055595057593058593059594058597057598056596056595055595057594059594058597058598)
 (.leaf 58598056597056596056595056596058597058598059599057601057601056600056597058598059599058598059601057604056602056601056600058602058602058603058604057605057605056602056601058602058603058604058605058609057609055608057606058607058607058608058609057610056610057609055608058608058608058609058610057613057613056612056611056611058611057612058613056619055619056619055618056618059617059619059619056620056619055619056619056618059619059619057620056622056621055620056619056620057620059621058623058624056624056621055620056620059621058623058624057625056625056624056621056622058623058624057625056626055626056625056624058624058624057625058626057628055628056627055626056626058626058627058628056632056632056631056630057630058630058631058632057641057641056638056637057637058639059639058641058641057641057641056638057638059639058641059641057644057644056643057641058641059641059642059644058645057645057644056643057641059642059644058645058649056650057647057647058647059647058649059649057651056651056650057647058648058649059649059650058651056652056651056650058649059649059650059650056654056654057653056652058651059650058651059653056654057656055654056654056654059653059654059656056661055661056661055660056659058658057661059660057665056665056662055661057661057662057662058665056665056666056665056662057662057662058665058666056667055666055666056666056665058666059666059667056668056667055666055666057665059666059667059668056668055668056667055666056667059667059668059670058671056669055668056667056668059668059670059670057672056672056669055668056668059670059670000000))
 (.node 1 (.leaf 56673056672056669058671059670000000000000000000000000000000056673000000000000000000000000057682056680000000000000000000000000000000000000000000056681056680000000057679000000000000000000000000000000057684056681000000000000000000000000057690055689000000000000000000000000058687058688056691055689055689000000057687058687058688058691058692056691056690055689056691058691059690058691058693056692056691056690056692059690058691058692058694056693056692056691058692058691058692058693057697056695056694056693058694058693057696000000058700057700056698057698058698000000059699058699000000056705056704057702057701000000000000000000000000000000056706056705000000000000000000000000000000000000000000056706000000000000000000000000058035057033057032058032058031059031060033059035059035058035057033057032058032060033059035000000057038057038058037057036058036059036058037059038058041056040057038058037058037058037059038059039057041056040056040057038057038059038059039059042058044056042057041056040057041059042060043060043057045056045056045057045057045059045060045059045057046057046056045056045059045060045059045060047059048057048056047057046057046060047059047059050059052057054057051057050058050059050059051059054058055057055057054057051058051059051059054000000000000057056057055057054059052059054000000000000000000000000000000058056000000000000000000059057000000000000000000000000000000059057058058059059000000057060000000000000000000058058059059060061058063057061057060000000000000059059060061059063000000000000057061057060000000060061059063000000)
 (.leaf 58065000000000000000000000000000000000000000000000000000000058065000000000000000000000000000000057067000000000000000000000000000000000000059070058070057070057067000000000000000000000000058074057072057071057070058070000000000000000000057074057073057072057071058071000000000000000000057076057075057074057073057074000000000000060076057076057076057075057074058074000000060076060077058080057080056078057076057076060077060077060079059080056080057080056078058077060077060079060080057082057081056081056080059080060080060080059083059084058084057082057081057082059083059084060084057091057093057090056090058089059091058090060092059094058094056092057093057091060092058092059093058098058098057095057094059095059094059095060096058099058099058098057095058095059095060096059099059103058103057101058101059101059102060103060103057107057107058104058104059105060104060106059105059108056108057107058104059105060106059105060107058109056109056108057107057107059105060107059109059110057110056109056108059108060107059109059110059111057112057111057110059110059110060111059112058113057113057112057111059111060111059112059113057113057114057113057112059111059112059113058113057115057116057115057114057113058113059113059114058117056117057116057115059114059113059114059115058118057116056117057116057115059114059115058117059122057120057119056118057120059118058121059122058124057122057121057120059122059122059123059124058125057123057122057121057122059123059124058124057127057126057125057124057125059124059127058128057128057127057126057125058125059127058128059129)))))
 (.node 8 (.node 4 (.node 2 (.node 1 (.leaf 57130057129057128057127057128059129058130059129057132057131057130057129057130059129059132059133059138057137057136058135058135059135058136059137058147057147056145058143058143060143059144058147058148056147057147056145058144059144058147060147058152057152057151057150057149059150060150060150059153056155056153057153057152058152059154059155058156056155056155056153059153059154059155058155058160057158056158057156057157059158059159058159058166057166058165057164059164059164059165059166000000000000000000000000000000000000000000000000000000000000000000000000000000000000000000000000059206057206057205058205058204059204059205059206058211057209057208058208058207059207059208059211058212057210057209057208059209059208059211059212058215058214057212057211059213059213059214060215059216000000000000057216059216059216060217059218057219000000000000000000059216060217059218059219059219000000000000000000059216059218059219059220000000000000000000000000057219059219059220000000000000000000000000000000059219059220000000000000000000000000000000000000000000000000000000000000000000000000000000000000000000000000000000000000000000000000000000000000000000000000000000000000000000000000000000000000000000000000000000000000000000000000000000000000000000000000000000000000000000000000000000000000000000000000000000000000000000000000000000000000000000000000000000000000000000000000000000000000000000000000000000000000000000000000000000000000000000000000000000000000000000000000000000000000000000000000000000000000000000057269000000000000000000000000000000000000)
 (.leaf 58272057270057269000000000000000000000000000000000000057273057270057269000000000000000000000000000000000000000000057273000000000000000000000000000000000000000000000000000000000000000000000000000000000000000000000000000000000000000000000000000000000000000000000000000000000000000000000000000000000000000000000000000000000000000000000000000000000000000000000000000000000000000000000000000000000000000000000000000000000000000000000000000000000000000000000000000000000000000000000000057373057373057372057371058371059371059372059373058377057375057374057373057373059373059376059377058378057378057375057374058374059376059377059378058382058381058381057380059380060380060380060382058393057393057392057391059391060391059392059393058394057394057393057392059391059392059393059394059403057403057402000000000000000000000000000000059404057404057403057402058402000000000000000000057405057405057404057403059403000000000000000000057407057407057406057405057405000000060406000000059409057408057407057406058406060406000000000000059410057411057408057407057407000000000000000000059411057412057411057408059409000000000000000000059412058413057412057411059410000000000000000000059413058413058413057412059411000000000000000000000000057416057415058413059413000000000000000000000000057417057416057415000000000000000000000000000000058418057417057416000000000000000000000000058419058419058418057417000000000000000000000000057431057430057429058428058428059428059431060432057432057431057430057429058429059431060432059433057432057432057431057430057431060432059433059434))
 (.node 1 (.leaf 59434057433057432057431057432059433059434059435059434058435057433057432057432059434059435060436057437056438057437058435059434060436060436058437059441057439056438056438058437058438060439060439059441057442057439056438058438060439060439059440057442057443057442057439059441060439059440059441058444058444057443057442059441059440059441058444057444057445058444057443057442059441058444058445059448057447057446057445057445059447059448059449058450057448057447057446058446059448059449058449059456057456057455057454058454059454058455059456057460057461057460057457058457059459058458060461059465057463056463057461058461058461059462059463059465057464057463056463058462059462059463059466059467057468057467057464059465059466059467059468059468056467057468057467058465059467059468059469059470057468056467057468059467059468059469059470059471056469057468056467059468059469059470059471059471056471056469057468059470059470059471059472059471057471056471056469059471059471059472060472059473058473057471056471059471059472060472060472059474057474058473058473059473060472059473059474058480057480057477058477058476058476059479059480058481057481057480057477058477059479059480060481058484058484057483058481059482060481060483059482059485058484058484057483059482060483059482060485058487058486058486058484059485060485060486060486059489057490058489057486059488059488059489059490059493057494057493058491059491060492059493060494058495057495057494057493059492059493060494058494058498057496056495056494057495059496059497059498057502057500057499057498058498058499058501059502)
 (.leaf 58505057503057502057501057502058502059502059503057505057504057503057502057503059502059503059504057506057506057505057504057505059504059507058507058511057509057508057507058507059507058508059511057511057510057509057508057510058508059511058511059516057516057515057514058514058515058515059516057520057519057518057517058517059517059518059519059521057520057519057518058518059518059519060520058523057521057520057519057520059519060520060521057522057522057521057520059521060520060521059522059525057524057523057522057522059522059525060524059526057525057524057523058523059525060524059525059526057526057525057524059525060524059525059526059527057527057526057525059526059525059526059527059528057528057527057526059526059526059527059528058531057529057528057527059527059527059528059529058532058531057529057528059528059528059529059530058538058538057537057536059536059536059537059538058544056542057541056541058540059540059541060543057544057545056542057541058541059541060543059545057552057552056549057548058548058548059551059552057553056552057552056549058549059551059552059553057553056552056552057552057552059552059553059554057553057553056552056552057553059553059554058554059557057556057555056554058554059556058555059556059558056558057557057556059557059556059557059558058561057561056558057557058557059557059558059559059561056561057561056558059558059558059559059560059563057562057561056561059561059560059561059562059566057566056565057566058564059564059565059566058570057570056567057566059566059566059567059570059571057571057570056567058567059567059570059571)))
 (.node 2 (.node 1 (.leaf 58573057573057572057571059571059571059572059573057575056575057575057574059574059574059575058575057577057578057575056575057575058575059575059576059581057580056579056579057579059578059581059582059582057583057580056579058579059581059582059583058584057584057583057580059581059582059583059584059585057585057584057583059582059583059584059585058587058587056585057585059585059585058586059587059594057594057593058593059593059594060594060595058597056596057594057593058593060594060595059597058598057598056596057594059594060595059597059598059601057601057600058598059599059599059600059601058602058602057601057600058598059600059601058601059619056618056618057617057617060617060618060618059619056619056618056618059617060618060618059620057620056620056619056618059619060618059620059621059621056620056620056619059619059620059621059622058623056622056620056620057620059621059622058622058627057627056626057625057625060625060625060627059635057634057633056632058632058632059633059634059637057636058635057634059635059634060636060637058639057637057636058635058635060636060637059637059639057638057637057636059637060637059637059638059641058641057641057638059639059638059639059640059644057644057641058641059641059640060643059644058645058645057644057641059642060643059644060645059644058645058645057644059644059644060645060646059650058651057651058649059649060649060649059652059654057655056654058652058651059653059654059655059656056654057655056654059653059654059655060656059656057657056654057655059654059655060656059657058658056657057657056654059656060656059657060658)
 (.leaf 57658057659056657057657059656059657060658060658057661057659056659057659057658060658059658060660059660056661057659056659058658059658060660060661057662057661056661057659057661060660060661059663057662057662057661056661059660060661059663060663058665057665057662057661057662059663060663059663058666056665057665057662057662060663059663059666059668056668056667057665059666060666059668059669059670056668056668056667059667059668059669000000059670058671056668056668059668059669000000000000000000057672058671056668059670000000000000000000000000057679000000000000000000000000000000000000000000057682057679000000000000000000000000000000000000000000057682057679000000000000000000000000000000000000000000057682000000000000000000000000000000000000000000000000000000000000059686058686058691056691057690057687058687058687000000000000059690056692056691057690058688000000000000000000000000057697057694058694058693000000000000000000000000057698057697057694057696000000000000000000000000058698057698057697000000000000000000000000000000057701058700058700058699000000000000000000000000057704057701058700000000000000000000000000000000000000057704057701000000000000000000000000000000000000000000057704000000000000000000000000000000000000000000000000000000000000000000000000000000000000000000000000000000000000000000000000000000000000000000000000000000000000000000000000000000000000000000000000000000000000000000000000000000058029000000000000000000000000000000000000060033058032058031058030059030000000000000000000059035058035058032058031059031000000000000000000))
 (.node 1 (.leaf 59035058035058032060033000000000000000000058037058037058036058035059035000000060036060037059042057041058041057038059038060038061040061042060043058043057041058041059039061040061042061042059045057045058044058043060043061042060044060045060045059045057045058044060043060044060045061045060047057046057045059045060045061045060045060046060050058049059048058047059047061048060048060049000000058055059052058051059051000000000000000000000000000000000000058055000000000000000000000000000000000000000000000000000000000000000000000000058058000000000000000000000000000000000000000000060061000000000000000000058058000000000000000000059063058063000000000000059059000000000000000000000000000000058063000000060061000000000000000000000000000000000000000000000000000000000000000000000000000000000000000000000000000000000000000000000000000000000000000000000000000000000000000000000000000000000000000000000000000000000000000000000000058068000000000000000000000000000000000000000000059070058068000000000000000000000000000000000000058071058070059070000000000000000000000000000000058074058071058070000000000000000000000000000000057074058074058071000000000000000000000000000000058074057074058074000000000000000000000000060076057076058074057074000000000000000000000000060077057076057076058074000000000000000000000000060077058077057076057076060076000000000000000000060079058080058077057076060077000000000000000000060080059080058080058077060077000000000000000000059083057082058082059080060080000000000000061082059084058084057082058082060080000000061082060084)
 (.leaf 58086058085058084059084060084061084061084060085058087058088058085058084059084061084060085059087059090057089058089058088058087059087061088059090059091058089057089058089059087061088059090060091058092058094057091057091058090059091060091060092060096058098058095059095059094059094060095060096059099058099058098058095059095060095060096060097059100058100058099058098060096060096060097059100060106059105059105059103060103060104060105060106060107059108057107059105060106060106061107061107059109058109059108057107059105061107061107061109058117058118058117057115059114060114060115060116058117058119058118058117059115060115060116060117058121057120057120058119058117060117060118060119059122059122057120057120059118060118060119060120059123057122059122057120058121060119060120060121059127058125057125058125058124060123059126060125059133057132058132057130059129060131059130060133058136058136058135057134058134059135059135060136060142058141058140059140059139059140060140060141060142058142058141058140059140060140060141060142060143058143058142058141060142060141060142061143058147058147058144058143060143061143061145061146060147058148058147058144059144061145061146061147060147058149058148058147058147061146061147060147059150057149058149058148060147061147060147060150060150058151057149058149060147060147060150061149058152057152058152058151060150061149061151061151059154059153057152058152060150061151061151059154059158057157058157058156058155059155060157060158059159058159057157058157059155060157060158060159059164059164058163058162059160060160060161060164))))
 (.node 4 (.node 2 (.node 1 (.leaf 59165058165059164058163059161060161060164061164059212058212058211059209059208059209060209061211060217059216059216058215060215060215060216060217059219057219059216059216060217060217060218060219000000000000000000000000000000000000000000000000000000000000000000000000000000000000000000000000000000000000000000000000000000000000060231000000000000000000000000000000000000060231000000000000000000000000000000000000000000000000000000000000000000058272000000000000000000000000000000000000000000000000058272000000000000000000000000000000000000000000000000058272000000000000000000000000000000000000000000000000000000000000000000000000000000000000000000000000000000000000000000000000000000000000000000000000000000000000000000000000000000000000000000000000000000000000000000000000000000000000000000000000000000000000000000000000000000058370000000000000000000000000000000000000059376058374057373058372059372060372061374060376059377058377058374057373059373061374060376060377060382059382058382059380060380000000000000061381060386059386059383059383059382061383060385061385060386058387059386059383060384060385061385061386060389058389058388058387060386061386061387061388059390058390058389058388060386061387061388061388060391059391058390058389060389061388061388061390000000000000000000000000058395061395061396060397000000000000000000000000000000060397000000000000000000000000000000000000000000000000000000000000000000000000000000000000000000000000000000000000000000000000000000000000000000000000000000000000000000058402000000000000000000000000000000000000)
 (.leaf 57405059404059403000000000000000000000000060406058406057405059404000000000000000000000000000000057407058406057405000000000000000000000000000000059409057407058406060406000000000000000000000000058419000000000000000000000000000000060417000000058420058419000000000000000000060417000000058421058421058420058419000000060417000000000000059422059421058421058420000000000000000000060420059431058429058428058427059427059427060428060431060432057431058429058428059428060428060431061432059434057432057432057431060432061432060433061433058437057437058435059434060436059435061436060438058438058437057437058435060436061436060438060439060439058438058437057437058437060438060439061440060439059441058438058437058438060439061440061441058445057444058444057442059441059442060444060445059446058444057444058444058444060444060445059446059447057445058444057444058445060445059446060445060451058452058451058450058449061449060451059452059453057453058452058451060451060451059452059452058455058455058454058453059453060455061455060455059459058457059456058455058455060455059458059458058461058460057460057460058458061459060461061461058461058461058460057460060461060461061461060461059466059465059465058462059462060462060465060466058476058476058475059474059474061474060475061476059479058477058476058475059475060475061476060479059480058480058477058476058476061476060479060480060483059482059482058481060481060481061482060483060485059485058484059482060483060483060484060485060486059485059485058484059482060484060485060486059488059488058487059485060486060486061486060486))
 (.node 1 (.leaf 59489058487059488058487060486061486060486060489059496057495058495059493060494060494060495060496059497058497057495058495058494060495060496060497059502057502057499058498058499059499060499060500058502057502057502057499058501060499060500060501059507057505057505058505059503060503059504059506058511057511058511057510058508059509059509060510059515058513058512057512059511060511059512059514060520059521057520058518059518060518060519061520059525058523057522058523060521060521060522060523060524059525058523057522059522060522060523061525058533058534058533058532059530061530061532060532059535058535058534058533059531061532060532059535059536059536058535058534058533060532059535060536060543058544058541058540059540059540060541060542059545057544058544058541059541060541060542061543058545057546057544058544060543060542061543059545060547058546057546057546058545059545060547061548059549058547058546057546058545060547061548061548058548058548058547058546060547061548061548060548059552057552058549058548058548060548061549061550058555058555058554057553058554060555059556061555059571059571058570058567059567060567059568060569058578058577057577058575059575059576060576059578059581058579057579058577058578059578060580061581059582059581058579057579059578060580061581060582059588058588058587058586058586060586060587059587059591058591058590057589058589060589059590060589059597058597059594058593060594060595060596060597059598058598058597059594060595060596060597059598059605058605058604058603059601059602060602060605058606058606058605058604059602060602060605059606)
 (.leaf 59611058611058610058609058608060607060610060611060614058614058613057612058612060612060613060614060615058615058614058613060613060613060614060615060616058616058615058614060614060614060615060616060617057617058616058615060615060615060616060617060618059617057617058616060616060616060617060618059620059619059619059617060618060618059619061619060625057625058624058623058622061622061623061625060625058626057625058624060624061623061625060626060627058627058626057625060625061625060626060627059628058628058627058626060625060626060627059627060637059637058635059635059634060634060635060636060645058645059644059642060643060643060644061645060646059646059644058645060645061645061645061646060649059649058649059647060648061648061648061649059653058651059650059650060649060651060652060653060660057661058658057658060658000000000000000000059663057662059660057661060660000000060660000000060663057662057662059660060661060660000000060662059666058666058665057662060663060662060663060664060666059666058666058665059663060663060664060667059686000000000000000000000000059683059685060686058687058687000000000000058686000000000000000000000000058688058687000000060688000000000000000000000000058691058688058687058687000000000000000000000000058691059690058691000000000000000000000000000000058692058691059690000000000000000000000000000000058693058692058691000000000000000000000000000000057696058693058692000000000000000000000000000000000000057696058693000000000000000000000000000000059699000000000000000000000000000000000000000000000000058699059699000000000000000000000000)))
 (.node 2 (.node 1 (.leaf 58699000000000000000000000000000000000000000000000000000000000000000000000000000000000000000000000000000000000000000000000000000000000000000000000000000000000000000000000000000000000000000000000000000000000000000000000000000000059031059030000000000000000000000000000000000000060033059031059030000000000000000000000000000000000000059035060033000000000000000000000000000000059035000000059035000000000000000000000000061040059039059038058037060037061037062039061039061042059042059039059038060038062039061039062042061042060043059042059039061040061039062042062042060044060043060043059042061042062042062042061044000000059051059050060050060049061049000000000000000000059054059051059050060050000000000000000000000000000000059054059051000000000000000000000000000000000000000000059054000000000000000000000000000000000000000000000000000000000000000000000000000000059057000000000000000000000000000000000000000000058058059057000000000000000000000000000000000000059059058058059057000000000000000000000000000000060061059059058058000000000000000000000000000000000000059063060061000000000000000000000000000000000000000000000000000000000000000000000000000000000000000000000000000000000000000000000000000000060079060077060077000000000000000000000000061082059083060080060080000000000000000000000000060084059084059083060080000000000000000000000000061084060084059084059083061082000000000000061083059087058087058086059084061084061084060085061088061088059087058087058086060085060085061088062089059090059090059087058087059087061088062089000000)
 (.leaf 60091059091059090059087061088062089000000061089059091058090059091059090059090000000061089060091060095059093058092060092060091060092062093061093059094059094059093058092060092062093061093061094059100059100059099060096060096060096061097061100060101059101059100059099060097061097061100061101060102059102059101059100059100061100061101060101060110059110059109060107061107061108061109061110060111060111059110059109061109061109061110060110059113059113058113059113059112060112061112061113059126059124058124059124060122061124061125060125060131059129058130059129059128060127060128060131059130059132059129058130060128060128060131061132060134058132059133059132059130061132061133061134059135059135058134059133059134061135061136061137061140059138059137058136060136060137061137062138059140059139059138059137060137061137062138061139061145059144060143060142060142061142061143061144061146058147059144060143061143061143061144061145061147060147058147059144061145061144061145061146060150059150060147060147061147061146061147061148061149060150059150060147060147061147061148061149061151058152060150060150061149061149061150061151059154059154058152060150061151061150061151061152060155059155059154058152061151061151061152060155059155058155059155059154059154061152060155061156060158059158059155058155059155061156061157060157060164059164059161059160060160062161062162061164061164059165059164059161060161062162061164062165061167059167059166059165061164062165062166061167060169059169059168059167061167061167061168061169060170059170059169059168059168061168061169061170))
 (.node 1 (.leaf 59209059208059207059206059206060206061207061208061211059212059211059208059209061208061209061212061212059213059212059211060209061209061212061213060214059214059213059212061211061212061213061214060215060215059214059213061212061213061214060214060231000000000000000000000000000000061228061229000000000000000000000000000000061228061229061232000000000000000000000000000000061232000000000000000000000000000000000000000000000000000000000000000000000000000000000000000000000000000000000000000000000000000000000000000000000000000000000000000000000000000000000000000000000000000000000000000000000000000000000000000000000000000000000000000000000000000000000000000000000000000000000000000000000000000000000000000000000000000000000000000000000000000000000000000000000000000000000000000000059371000000000000000000000000000000000000061374059373059372059371000000000000061372062375060376059376059373059372060372061372062375061376060377059377059376059373061374062375061376062377061381060382060382060380000000000000000000000000060385060384059382060382061381000000061382062385061388060389060386060386061386062386062386061387061388059390060389060386061387062386061387061390060392059392060391059390061388061390061391061392061395058395059394059393061393061393061394061395061396059396058395059394061394061394061395000000060397000000059396058395061395061395000000000000000000000000000000059396061396000000000000000000000000000000000000000000000000000000000000000000000000000000000000000000000000000000000000000000000000000000000000000000000000000000000000000000)
 (.leaf 60406000000000000000000000000000000000000000000000000060406000000000000000000061408000000000000000000000000000000061410060411060413000000000000000000000000000000060416061417061420000000058421000000000000060417061417061420062420059422059422060421059422060420060421061423060424059424059423059422060421060421061423060424061423059427059427059426059425060425060426061426061429060431059431059428059427059427061429061430061431061432060432059431059428060428061430061431062432059435060436059435059434061433061434061435062435061436060436060436059435059434061435062435061435060439058438058437060436061436061435061436061439061441059440060439060439061440061440061441061442059442059441059440060439061441061441061442061443060444058444059441059440061441061442061443060443061448059449059448059447060445061447062448061447061449058449059449059448060446062448061447061448060451060451058449059449061448061447061448060450061453058452059453060451059452060450061453062453060455059453058452059453059452061453062453060455061455059454059453058452061453062453060455061456059458059456058455059454061455061456062456061458059458059459059456058455060455062456061458062458061459058458059459059456059458061458062458061460060461060461058458059459059458062458061460062460061461058461060461058458061459061460062460062460060465059463059462058461060461061461061462061463060466059466059463059462060462061462061463060465060469059469059468059467059467061465061466060469060473060472059472059471059470061471061472062472061474059474059473060472061473061472061473061474)))))))))
 (.node 128 (.node 64 (.node 32 (.node 16 (.node 8 (.node 4 (.node 2 (.node 1 (.leaf 61476058476059475059474061474061474062475061476060479059479058476059475060475062475061476061479060480059480059479058476061476061476061479061480060484059482060483060481061482061482061483061484060489059489059488060486061486061487062487062488060490059490059489059488060486062487062488061488059502059502058502059502060500060501060501061502059504059504059503059502059502061502061503061506059506059507059504059503060503061503061506060506059508059507058507059507059506060506061506061507059509058508059507058507060506061506061507061508059509059511058508059507059508061507061508061509059512058514059511058511060510061512061513061514059514059515058514059511060511061513061514061515060516058515059515058514059512061514061515061516059516058515058515059515059514061515061516061517059517059517059516058515059516061517061518062519061525059525060524059525060523062523061524062525061530059528059527059526060526061528062527061528061530059529059528059527060527062527061528062530061530059530059529059528061530061528062530062531061532059531059530059529061530062530062531062531059535059535058533059531061532062531061532062534060536059536059535058533060532061532062534062535060537059537059536059535059535062534062535062535059545058545059545060543060542061542061543061546060547058545058545059545061543061543061546062546061548060547058545058545059545061546062546062546061549059551058548059549061548061547061548062550061550059552059551058548060548061548062550061550060553059553059552059551061549062550061550061551059553059554059553059552061550061550061551061554)
 (.leaf 59556059556058554059554059553061554062554062554061559059557059556058555061555061555062557062557061560059558059557059556060556062557062557061558061560059559059558059557061559062557061558061559061560059560059559059558061560061558061559062561059564059563059562059561059561060561061562061563059564059564059563059562060562061562061563062565059568059570059567059566060566060566061567061568060573059573059572059571060569061569060570061573059574059574059573059572060570060570061573060574059576059575058575059575061575061575061576060576059578058578059576059575059576060576061576062578060580059578058578059576060576061576062578061580061581059581059578058578059578062578061580061581060583059583059582059581061581061581060582060583059592060593059592059591060589060589061592061593060594059594060593059592060590061592061593062593059606058606059605059602060602061602061605060605060610059610058608059608060606061608061609060610060611059611059610058608060607061609060610061611061620059621059620060618059619061619061620062621059622059622059621059620061619061620062621062622061622058622059622059621061620062621062622061623061623060624058622059622059622062622061623061624061625060625060624058622061622061623061624061625059629059630059629059628059627061628060629061630059632058632059631059630060630061630061631061632061634059633058632059631060631061631061632061633061639059638059637060637060636062636061637061638060642059640059639059638061639061638061641061642060643060643059640059639061640061641061642062643061648060648060648060646061646000000000000000000))
 (.node 1 (.leaf 60652059652060649060649061649000000000000000000000000060660059658060658000000000000000000000000060667060666059666059663060663000000000000000000000000000000000000000000000000000000061680061681059683000000000000000000000000061680061681061684059685000000000000000000000000061681061684061685060686059686000000000000059683061684061685000000000000058686059686000000059685061685000000000000000000058687060688058686000000000000000000000000000000000000000000058687000000000000000000000000000000000000000000000000000000000000000000000000000000000000000000000000000000000000000000000000000000000000000000000000000000000000000000000000062039060038060037060036061036000000000000000000062042061042061042061040061039000000000000000000062043060045060044061042062042000000000000000000000000060050060049060048061048062048062049061051000000000000000000060050000000061051000000000000000000000000000000000000000000000000000000000000000000000000000000000000000000000000000000000000000000000000000000000000000000000000000000000000000000000000000000000000000000000000000000000000000000000000000000000000000000000000000000000000000000061082000000000000000000000000000000000000060085060085061084061084061083000000000000000000061088059087060085061084061084000000000000000000062089061088059087060085060085000000000000000000060091059091060091059090000000000000000000063091060092060091059091060091061089000000063091063091062093060092060091059091060091063091063091062092060095060095059094060095061093062093062094062095060096060096060095059094061094062094062095062096)
 (.leaf 61100059100060097060096060096062096063098061100061101060101059100060097061097063098061100061100061104060104060103060102060101061101062103062104060105060105060104060103061101062103062104061104060106061107060106060105060105061104061104062105062118060116060115060114061114061114061115062118060117060117060116060115061115061115062118062119062119060118060117060116062118062118062119062120060119060119060118060117060117062119062120062121062122060120060119060118062119062120062121062122062123060121060120060119060119062121062122062123061124060122060121060120062122062122062123061124061125060123060122060121062123062123061124061124060126059128060125059126060125061124062127063128060127059128059128060125061125062127063128063128060128060128059128059128060126063128063128063129060131060131060128059128060127063128063129062131061132059130060131060128060128063129062131062132061133060133059130060131060131062131062132062133062138061140060137060136060137061137062137062138060155060155059154061151061151063153062154062155061156059155060155059154061152062154062155062156061157060157059155060155060155062155062156063157061160060160060159060158060157062158062159062160062161059160060160060159060159062159062160062161062162060161060160059160062161062161062162062163061164060164060161060160062161062162062163062164062165061164060164060161062162062163062164062165061167061167060166061164062165062165062166062167061168059168061167060166062166062166062167062168000000000000000000000000000000000000000000000000060206059206060205060204061204062204062205062206)))
 (.node 2 (.node 1 (.leaf 61212061211060209059209061208062208061209062210060216060217060216060215060214062215063216062217061219060219060218060217060216062217062218062219000000000000000000000000000000000000000000000000061232000000060231000000061228062228062229062230000000000000000000060231061229062229062230062231000000000000000000000000000000062231000000000000000000000000000000000000000000000000000000000000000000000000000000000000000000000000000000000000000000000000000000000000000000000000000000000000000000000000000000000000000000000000000000062371062375061374060372000000000000062371063373063374062377060377060376061374062375063374063375063376062379061378060378060377062377063376000000000000000000000000000000061379000000000000000000000000062385061385060385061383061382063383062385063384061391061390061388061388061387062387062390062391000000000000000000060397000000000000000000000000000000000000000000000000000000000000000000000000000000000000000000000000000000000000000000000000000000000000000000000000000000000000000000000000000000000000000000000000000000000000000000000000000000000000000000000000000000000000000000062407000000000000000000000000000000062407062408063409060411000000000000000000000000063409062410063412060413000000000000000000061410062410063412062414000000000000000000000000060411063412062414062415000000000000000000000000060413062414062415061416000000000000000000000000000000062415061416061416062420000000000000060417061417062417061418062419061423060421060420000000062420062419062420062423060424059422060421060420060421062420062423061423)
 (.leaf 60426060425059424059424061423063423062424062425061429059427060426060425060426062425062426063428061430060428059427060426061426062426063428061430061439060439060438061436061435063437063437063437061440061440060439060438061436063437063437062438060444059446060445060444060443063442062443061446061447060445059446060445062443062443061446063447060450059452060451061449061448063449063449063450061453059452059452060451060450063449063450062451062453061453059452059452060450063450062451062452061456061455060455061453062453062452062453062456062458059458059458060455062456063457062458063457060469060469060468059467061465061466062466063469061470060470060469060468061466062466063469062470061471059470060470060469060469063469062470062471062475060475061474059474061473062473062474062475061479060479061476060475062475062475062476062479061480060480060479061476061476062476062479062480061487061486060486060485060484063485063485062487060490060491060490060489062488063489063489062489061492060492060491060490061488063489062489062492061493060493060492060491060490062489062492062493061496060496060495060494060493061493062495062496060497060497060496060495061493062495062496062497062498059499060499059497060498061497061497062498060500060499059499060499060498061497062498062499060501060500060499059499062498062498062499062500060501060501060500060499060500062499062500061502061506059504060503059502061502062504061503062504060506059506059504060503061503061503062504062505061513060511060510059509061509061510062512062513062523060523060522060521061521061522062522062523))
 (.node 1 (.leaf 61528060526061525061525061524062524062525063526062527060527060526061525062525062525063526063528062530061530061530060527062527063528063529063529062531061532061530061530062530063529062530062531062534059535060532061532062531062531062532062533062535060536059535060532061532062532062533062534062535060537060536059535062534062533062534062535061538060538060537060536062535062534062535062536061539059538060538060537062535062535062536062537061542059540060541060540060539062538062539062540060541060541059540060541061539062539062540062543062546060547059545061543061543062543061544062545061554059553060553061550061550063550062551062552062554060555059553060553061551062551062552062553062557060556061555059556062554062554062557063557062557061559060556061555061555062557063557062557060561059561061560061560061559062559063560062561062565059564059564060562061562062562062563062564062567060565059564059564061563062563062564062565060566060566060565059564062565062564062565062566060570060570060569059568061568062568063571062572061573060573060570060569061569063571062572063573060574059574060573060570060570062572063573061573061576060576061575059574060574061573063575062576062578059578060576059576060576061576063578062579061580060580059578060576061576063578062579062580061581061581060580059578062578062579062580062581061584060584060583060582060582062582061583062584060588059587060587060586060585061585062585061587060589060589059590060589060588062587062588062591061592060590060589059590061588062588062591061592061593059592060590060589060589062591061592062593)
 (.leaf 61596060596060595060594062593062594062595062596060603059602059601060601060600061599062600062603060605059606060605060602061602061603062603061606060613060614060613060612062612061611062613062614062615060615060614060613062612062613062614062615060615060616060615060614060613062614062615062616061617060617060616060615062615062615062616062617061618060618060617060616060615062616062617062618061623061622059622061620062621062621062622061623061628059627060627060626060626062626062627062628060629060629059627060627062627062627062628062629060629060629059629060629060629062629062630061630062636060635060634061634061633063634062634062635062636060636060635060634061634062634062635062636000000061645060644060643062643063642000000000000000000061648061648061646000000000000000000000000000000060652060651061649000000000000000000000000000000060653060652060651000000000000000000000000000000060654060653060652000000000000000000000000000000060655060654060653000000000000000000000000000000060656060655060654000000000000000000000000000000060657060656060655000000000000000000000000000000061658060657060656000000000000000000000000000000000000061658060657000000000000000000000000000000000000060660000000000000000000000000000000000000060662000000060660000000000000000000000000000000060663060662000000000000000000000000000000000000060664060663060662000000000000000000000000000000060667060664060663000000000000000000000000000000060668060667060664000000000000000000000000000000000000060668060667000000000000000000000000000000000000000000060668000000000000000000000000))))
 (.node 4 (.node 2 (.node 1 (.leaf 62679061684059683000000000000061680062680062681062684061685059685059683000000061681062681062684000000000000000000000000060686000000000000000000000000000000000000000000000000000000000000000000000000000000000000000000000000000000000000000000000000000000061036000000000000000000000000000000000000000000061037061036000000000000000000000000000000000000062039061037061036000000000000000000000000000000062042061039062039000000000000000000000000000000062042062042061039000000000000000000000000000000061044062043061044000000000000000000000000061051000000061049061048062048062049000000000000000000000000000000061049062049000000000000000000000000000000000000000000061051000000000000000000000000000000000000000000000000000000000000000000000000061083000000000000000000000000000000000000000000061084061083000000000000000000000000000000000000060085061084061083000000000000000000000000000000061088060085061084000000000000000000000000000000062089061088060085000000000000000000000000000000000000062089061088000000000000000000000000063091060091061089000000000000000000000000000000063091060092060091061089000000000000000000064092063098061097060096060095062095062095063098064097061100061100061097060096062096063098064097063098061100061101061100061097063098064097063098063099061101060101061101061100061100063098063099064101062103061101060101061101061100063099064101062102061106061108060106061104061104063106062105063106)
 (.leaf 62109061109061108060106062105062105063106063107061110061110061109061108061106063106063107062109061111060112060110061110061110062109063111063112062113060112060112060110061110063111063112062112062118062118061115061114061114062115062115063116062119060117062118061115061115062115063116063117061124060125061125061124061124062123063125062126062127061125060125061125061124063125062126063127063129060128060127060126063128063128063129063130062131060131060128060127063128063129063130062131062132061132060131060128063129063130062131063132062136061136061135061134061134063134063135062136061139061139062138061137062137062138062138063139061141061140061139062138062138062138063139063140062148061146061145061144061145062144063147062148061148061147061146061145062145063147062148062148062152061150061149061148062148062149062151062151062155060155061152061151063153063153062154063153062159060159060157061157063157064155064156062159000000000000000000000000000000062171063173063174000000000000000000000000000000063173063174000000000000000000000000000000000000000000000000000000000000000000000000000000000000000000000000000000062214061214061213061212062210063212063213063214062215060214061214061213062211063213063214063215062218061218060216061216063216063216063217063218000000000000000000000000000000062222000000000000000000000000000000061232062230063232063233063234000000000000000000000000062231063233063234000000000000000000000000000000000000063234000000000000000000000000000000000000000000000000000000064351000000000000000000000000000000000000064351062351))
 (.node 1 (.leaf 62351000000000000000000000000000000000000000000000000000000000000000000000000000000000000000000000000000000000000063373061372000000000000000000000000000000000000063374062375061372000000062371000000000000000000063375061376062375061372063373000000000000000000000000061378062377061376063375000000000000000000000000000000062379061378000000000000000000000000000000000000000000000000000000000000000000000000063383061382000000000000000000000000000000000000062385062385061382000000000000000000000000064384063384062385062385061382063383000000064384062385062390061390061387062386062386062387062389062390062394061394061393061392063392062391063393000000000000000000000000061395000000000000000000000000000000000000000000000000000000000000000000000000000000000000000000000000000000000000000000000000000000000000000000000000000000000000000000000000000000000000000000000000000000000000000000000000063409000000061408000000062407000000063408063409063412060411061410000000063409063409063412063413062414060413060411061410062410063412063413063414062415000000060413060411063412063413063414062414062423061423060421062420062419063421063422062422063428061429061426060426062425062426062426063427061430061430061429061426062426062426063427063428062431061431061430061429063428063427063428063431062432062432061431061430061430063428063431062431063437061439061436061435063437063437064438063437063441061441061440061439063437063437063438063441061440061442061441061440062438063438063441064441062443061443061442061441063441063441064441064441)
 (.leaf 63442060443061443061442061440064441064441063442061446060444062443060443063442063442063443063446063447061447060444062443062443063443063446064446063447062448061447060444061446063446064446064447062449061447062448061447063447064446064447064447063450060450060450061448063449063448063451064451062456061456060455062453062452064452064455064455063457062456061456060455062453064455064455064457063457062458061458062456063457064457063456062458063462061461062460062460062459062460062460063461061462061462061461062460062460062460063461063462061464061463061462061461063462063461063462063463061465060465061463061462061462063462063463063464061466061465060465061463061464063463063464063465063469060469061466061465061466063465062466063469062470061470060469061466062466062466063469063470062471061471061470060469063469063469063470062470062479061479061476062475062475063475063476064477062480061480061479061476062476063476064477062479062487061487061486060484063485063485063486063487062488062487061487061486063485063486063487064488062492061492060490061488063489063490064491064491062493061493061492060490062489064491064491063493062496061496061493060493061493063494062495063496062504061502060501060501062500063500062501062503061510061509061508061507062507062508062508063511062512061512061509061508061509062508063511063512062513061513061512061509061510063511063512062513062516061516061515061514061513063512063513062515062519062519061518061517061517063517063518062519061522061521061520061519061521063521062522063523063526061528062525061524062524063524063525063526)))
 (.node 2 (.node 1 (.leaf 63529061528062527061528063526063526063527063528063529062530061528062527063528063527063528063529062543060541061542061539062539063539063540063543061543061542060541061542062540063540063543062544063548061547062546062546062545063545063546063547062550061548061547062546063546063546063547063548062551062550061548061547063548063547063548063549062557061555062554062554062553063553063554063555063557062557061555062554062554063554063555063556063560062561061559061558062558062559063559063560063571061569061568061567061568062568063568063571062572060570061569061568062568063568063571063572063573061573060570061569063571063571063572063573062576061576061575060574061573062573063575063576061576060576061576061575063575063575063576062576062579062578061576060576061576062576063578063579061587060588061585060585061585062585063585063586062591060589061588060588062587064588064589063591061592061592060589061588062588064589063591062592061599061600060598060598061598063596062599062599062603060603061602060600061599062599063602062602061606060605061605061602061603062603062605063606062608061608061607060605061606063606063607063608062613062612062612061611061610063609063610063613061623061625061624061623061623062621062624063625062627062627060626061625061623063625063626062626061632061631061630060629061630063629063630064632063634061633061632061631061632064632063632063633063640061638061637062636062636063636062637063640061642061642061641061638063640063640062641000000000000061644062643061642061642000000000000000000000000000000000000000000000000000000000000000000)
 (.leaf 62684061684061681061680062680063680063683000000000000061685061684061681062681063683000000000000000000000000000000061685000000000000000000000000000000000000000000000000000000000000000000000000000000000000000000000000000000000000000000000000000000000000000000000000000000000000000000000000000000000000000000000000000000000000000000000000000000000000000000000000000000000000000000000000000000000000000000000000000000000000000000064044062049062048062047062046063046063046000000000000000000062049062048062047063047000000000000000000000000061051062049062048062049000000000000000000000000000000061051062049000000000000000000000000000000000000000000000000000000000000000000000000000000000000000000000000000000000000000000000000000000000000000000000000000000000000000000000000000000000000000000000000000000000000000000000000000000000000000000000000000000000000000000000000000000000000000000000000000000000000000000000000000000000000000000000000000000000000000000000000000000000000000000000000000000000000000000000000000000000000000000000000000000000000000000000000000000063091000000000000000000000000000000000000063096062094062093062092063092064092064093064096062095062095062094062093063093064093064096065096064097063098062096062095062095065096064096064097062102062103061101061100063099063100064100064101064102062104062103061101064101064100064101064102063106061104061104062104064102064102064103064104))
 (.node 1 (.leaf 62105062105061104061104063103064103064104064107062109061110062109061106063106065108063107065109063111061110061110062109063107063107065109064111063112061111061110061110062109065109064111064112062114061114062114062113062112063112064114063114062115061115061114061114062114063114064116063116064123062123062122062121063119065120064122064123062123061124062123062122063120064122064123063123062126061124061124061124062123063123064125063126062138062138062137061137062138063137063137064138062142062141061141061139063139064139065142065142062143061143062141061141063140065142065142064142062144062143061143062141062142065142064142063144063147062145061145062143062144063144063146063147062151061150062148061148062148063148063148064151062151062152061150062148062149063148064151064152063153063153062152061150062151064151064152063153062154062154063153062152062151064152063153063153064155062156062155062154062154063153065155065155064155063157062156062155063153065155065155064155064156062158063157062156064155065155064155064156063160062160062159062158064156064156064159064160064161062161062160062159062159064159064160064161063163062163062162062161064161064161064162063163062163062164062163062162064162064162063163065163063166062166062165062164062163065163065164065165063174000000000000000000062171063171064173064174000000000000000000000000000000000000000000000000000000062204000000000000000000000000000000000000062207062206062205062204000000000000000000064206062209062208062207062206062207064206064207063209063212062210061209062208062209063209064209064212)
 (.leaf 63213062211062210061209063209064209064212064213062220000000062220062219062219064219064220064221062221000000000000062220062220064220064221064222062222000000000000000000062220064221064222063223000000000000000000000000062221064222063223063224062227000000000000000000000000063225063226063228062229062229062228000000062227063228064228064229063232062230062229062228063228064228064229064230063233062231062230062229062229064229064230063233000000000000000000000000000000064235000000000000000000000000000000000000000000000000000000000000000000000000000000000000000000000000000000000000000000000000000000000000000000000000000000000000064351000000000000000000000000000000000000064351062351000000000000000000000000000000064351000000000000000000000000000000064351064351000000000000000000000000000000000000062351000000000000000000000000000000000000000000000000000000000000000000000000062371000000000000000000000000000000000000000000063373062371000000000000000000000000000000000000000000000000063376000000000000000000000000000000063383000000000000000000000000000000000000062386062385063384062385064384064383065384065385062387062386062385063384062385065384065385065386062389062387062386062385062386065385065386063388062391063392062391062390062390063389065390063391000000000000000000000000000000000000000000000000000000000000000000000000000000000000000000000000000000000000000000000000000000000000000000000000000000000000000000000000000000000000000000000000000000000000000000000000000000000000000000000000000000062407000000000000000000000000000000000000)))))
 (.node 8 (.node 4 (.node 2 (.node 1 (.leaf 63412062410063409062408063408064408064409065410063413063412062410063409063409064409065410064411062417062416061416061416062414063415064415064416062418062417062416061416063415064415064416064419063420061418062417062416062417064416064419063420063421062419061418062417062418064419063420064419062426062425062424063423062424063423064424064427062426062426062425062424063424064424064427064428063431062431061430063428063427063428065429064431062431062432062431061430063428065429064431063431064432062434062433062432062431063431064431064432063435063435062434062433063431064431064432065435063436062436063435062434064432064432065435063435063441063441062438063437063437064439064440064441064441061440063441062438063438064440064441064442063446061446062443063442063442063442065444065445064446063447061446062443063443065444065445065446064452062452062451063450064451064450064451064454064455062453062452062451064451064451064454064455064455062456062453062452064452064454064455064456064457063457062456062453064455064455064456064457062460062459062458063457062458065459065459065459062460062460062459062458063458065459065459065461062466062466061466061465063464063465063465064466063469063469062466061466063465063465064466064467063470062470063469062466062466064466064467065468062479062480062479062476063476063477064477063480063481062481062480062479064477064477063480064481063490063489063489062488064488064488065489065489063493062493062492062489064491065491064492064493063494061493062493062492064491064492064493064494062497062497062496062495062495064495063496063496)
 (.leaf 62501061502062500062499062499063499064500064501062503062504061502062500063500064500064501064502062503061503062504061502062501064501064502064503063506062504061503062504062503064502064503064504062506062505062504061503062503064503064504064505062508062507062506062505062506064505064506064507062508061509062507062506062508064506064507064508063511061510061509062507062508064507064508063511063512062512061510061509062508064508063511064512062515062516061514061513063512063512063513064514063517061517062516061514063513063513064514064517063518062518061517062516062515064514064517063518062524062522061522061521062522063521064521064524062531062530063529063529063528064528064529064530062532062531062530063529063529064529064530064531062533062532062531062530062531064530064531064532064533062533062532062531062532064531064532064533064534062534062533062532062533064532064533064534062536062535062534062533064533064533064534064535062536062536062535062534064534064534064535064536062544061543062543062540063540063540063541064542062552062551063550062551063549064549064550064551062553062552062551063550063550064550064551064552062559062558062557063557063556065556063557064558063564062562062561063560063560063561064561064564062566062566062565062564062565063565065565065568062568061568062566062565063565065565065568063568063571063571062568061568062568063568065569064569063572062572063571062568063568065569064569064572063576062576063575061573062573064574063575064576062580062582062581062580062579064578063579063582063583061583062582062581063579063579063582064583))
 (.node 1 (.leaf 64588062587061587062585063585063586063586064587064589062588062587061587063586063586064587064588063591062591062588062587064588064587064588064589062592061592062591062588064589064588064589064590062592062594062593061592062592064590064591063593063596062596062595062594062592063593064595064596062596062597062596062595062595064595064596063596062599061598061598062597062596063596064596064599062599061599061598061598063596064596064599063600062599061599061599061598062599064599063600063600062602062603062600061599062599063600063600063602063606061606062603061603062603063603063605063605063614062614062613061611063610063611064613064614062617062618062617062616063614064614063615065618062618062619062618062617062617063615065618064619062620062620062619062618062617065618064619064620062620062621062620062619062618064619064620064621063622062622062621062620062620064620064621064622062621061623062622062621062620064621064622063622063625061623061623061623062621063622064622064625063626062626061623061623062624064622064625064626062628062630062629062628063626063627063629063629064632061632062630061630063629063630064630064631062637062639062636062635063635064635064636063639063640063640062639062636063636064636063639065639000000063642061642062641062641000000000000000000062678000000000000000000000000063676063676064677063683062681062680062679063679064679064682064683000000062684062681062680063680064682064683064684000000000000000000062684000000064684000000000000063046063046063045000000064044064044000000000000000000063047063046063045064045000000000000000000)
 (.leaf 62049063047063046063046000000000000000000000000000000062049063047000000000000000000000000000000000000000000000000000000000000000000000000000000000000000000000000000000000000000000000000000000000000000000000000000000000000000000000000000000000000000000000000000000000000000000000000000000000000000000000000000000000000000000000000000000000000000000000000000000000000000000000000000000000000000000000000000000000000000000000000000000000000000000000000000000000000000000000000000000000000000000000000000000000000000000000000000000064092000000000000000000000000000000000000064096063096063093063092064092000000065093065094065096062095063096063093064093065093065094066096063098063098064097063098064096065096066098066098063100063099063098064097064097066098066098065099064107062105063106063103064103064104065106064107065108063106062105063106064104065106064107066108065109062109063107063106065108066108065109066110064111063111062109063107063107065109066110066110064112063112063111062109065109066110066110065110063114062114063114062112063112065113065114064115063118063117063116062115063116065117066118066118065120063119062119063117063118066118066118065121064122063120063119062119064118066118065121064122064123064123063120063119065120065121064122066123063126062126063125062123063123065124065125064125064129063129063128063127064125064126064126065127063129063130063129063128064126064126065127064129063132063134063133063132064130065130066131066134065135062136063135063134063132066134065135065136063136062136062136063135064133065135065136064137)))
 (.node 2 (.node 1 (.leaf 63137062138062136062136065135065136064137065136065142063140063139062138064138065138065141066141065142062142063140063139064139065141066141066141063144062144062143062142065142066141065142065143063146062144062144062143064142065142065143065146063147063147062144062144063144065143065146065147063148062148063147062144063146065146065147064147063148062149062148062148063148064147065149065150064151062151062149062148063148065149065150064151064152062151062151062149063148065150064151065152065155063153062154063153063153065153065154065155065155064155063153062154063153065154065155066155064159062159064156064155064155065155065158066159064160063160062159064156064156065158066159066159065164063165062163063163063163065163065164065165065165063166063165062163065163065164065165065166064167063167063166063165065164065165065166065167064168063168063167063166065165065166065167065168063171062171063171062170063170064169065171065172064174063174063173062171063171065172064173065174000000063205000000000000000000000000000000000000063209062209063207062207064206065206065207065210064212063212063209062209063209065210065211064212064213063213063212063209064209065211064212064212064217063217063216063215063214065215065216065217065218063218063217063216063216065216065217065218064220062220062219063218065218065218064219064220063233063233063232062229064229065229065230065233063234063234063233063232064230065230065233065234064235000000063234063233063233065233065234065235000000000000000000063234063234065234065235065236000000000000000000000000000000065236000000000000)
 (.leaf 65350064351064351000000000000000000000000065350064351000000062351064351000000000000065350064351064352000000000000000000000000000000065354065355000000000000000000000000000000000000065355000000000000000000000000000000000000000000000000000000000000000000000000000000000000000000000000000000000000000000000000000000000000000000000000000000000000000000000000000000000000000000000000000000000000065385062386062385064384064383000000066384066385065386062387062386062385065384066384066385066387063388062389062387062386065385066385066387066387063389062390062389062387065386066387066387066389065390062390062390062389063388066387066389065391063391062391062390062390063389066389065391065392064393063393062391062390065390065391065392000000000000000000063393062391063391065392000000000000000000000000000000000000000000000000000000000000000000000000000000000000000000000000000000000000000000000000000000000000000000000000000000000000000000000000000000000000000000000000064403000000000000000000000000000000000000064403000000000000065410063412063409063408064408065408065409065412064415062414063414063413064411064412066413066413063415062414062414063414064412066413066413065416064419062418062417063415064415064416065416065417063420063420062418062417064416065416065417065418064422063422063421063420063420065418065421064422063423062422063422063421064419065421064422064423))
 (.node 1 (.leaf 64427062426063424062424063423064424066425066426064428062426062426063424064424066425066426064428064431063431063428063427063428065429066430066430063431062431063431063428065429066430066430065432065435063435064432063431064431065433065434065435063435063436063435064432064432065434065435065436063436063437063436063435065435065435065436064436064439063437064438063437063436064436065438065439065444063443063442064441065443066443065444065445065445063446063443063442063442065444065445065446065446064446063446063443065444065445065446066446065450063448064447064447065446065446065449066449065450063451063448064447064447065449066449066450064455064455064452064451064451065451065452066454065459062460063458062458065459064458065460066461065461062460062460063458065459065460066461065462065462063461062460062460065459066461065462066462063463063462063461062460065461065462066462066462063464063463063462063461065462066462066462065463063465063464063463063462063463066462065463066464063465063465063464063463063464065463066464066466065468063470063469062466064466066467066467066468065470062470063470063469064467066467066468065469064473063471064470062470065470065469065470065473063473063472063471064470064470065470065473064473065474063474063473063472063473064473064473065474065476063475063474063473064473064473065474065475063477063476063475063474065474065474065475065476063480062479064477063476063477065476064477065478064481063481062479064477064477064477065478065481064482063482063481062479063480065478065481065482065491064491063490063489065489065489065490065491)
 (.leaf 64492064491064491063490065489065490065491065492064498063496062497063496063496065494064497065498063511063511062508062508064507065507065508065509064512063512063511062508064508065508065509065510063512062513063512063511063511065509065510065511063513063513063512062513063512065511064512064514063518063518063517062515064514064515064517065518064520063520062519063518063518065518064519064519064524062524063523062522063521064521065523064524064525062524062524063523064521065523064524064524063538063537062536062536064535065535065536065537063538062538063537062536064536065536065537065538063540063539062538063537063538065537065538065539063540063540063539062538063538065538065539065540063541063543063540063539063540065539065540064542063548063547063546063545063545064546065546065549065556063556063555063554063554064554065555065556063557063557063556063555064555065555065556065557063561063560063559062559064558064559065559064561064564063564063563063560063561064561064561065564064565063565063564063563064561064561065564064564065568062566063565062565063565064565065565065566063568062568062566063565065565065565065566065567065569063568062568062566065568065566065567066569064572063572063571063568065569066569065569066571065573063573063572063571064569065569066571065573063575063575062573063573065573065573065574065575063578063579063578062576063577064576065576064578063579063579062579063579063578064578065578064580064583063583062580063579063579064580065580064582063586063586063585062585063585064585065585064587064595062595062592062592064591065593064592065593))))
 (.node 4 (.node 2 (.node 1 (.leaf 64596063596062595062592063593064592065593064595063600062599062599063596064596065598064597064599063600063602062599062599063600064599065601065602063602062602063602062599063600065601065602064603063603062603062602063602063600065602064603065602063605063606062605062603063603065602066604064606064607063607063606062605063605066604064606064607063608063608062608063608063607065608064607066610063611063610063609063608063608066610065611065612064613063613063610063609064609065611065612064613064614063614063613063610063611065612064613065612063615062617063614062614063614064613065614065617065618062617062617063614064614065614065617065618064619062618062617062617063615065617065618065619064620062620062618062617065618065618065619064620064625063625062624062621063622065621065622065623064626063626063625062624064622065622065623066624063629063629063626062626063627065625066628065629063629062628063629063626063627066628065629065630063630063629062628063629063629065629065630064630063639062637063636063635064635066637000000000000065639063640062637063636064636000000000000000000000000062641063640062637063639000000000000000000000000000000062641063640065639000000000000000000000000000000000000000000000000000000064673064676063676000000000000000000000000064673064676064676063679063678062678000000063676064677064677065678064682063680063679063678063679065678066681065682064683063683063680063679064679066681065682066681000000000000000000000000000000065685000000000000000000000000000000000000000000000000000000000000000000000000000000000000000000000000000000000000)
 (.leaf 66042064044000000000000000000000000000000066042000000064044064044000000000000000000066042000000000000000000064045064044000000064044000000000000000000000000063046064045064044064044000000000000000000000000000000063046064045000000000000000000000000000000000000000000000000000000000000000000000000000000000000000000000000000000000000000000000000000000000000000000000000000000000000000000000000000000000000000000000000000000000000000000000000000000000000000000000000000000000000000000000000000000000000000000000000000000000000000000000000000000000000000000000000000000000000000000000000000000000000000000000000000000000000000000000000000000000000000000000000000000000000000000000000000000000000000000000000000000000000000000000000000000064092000000000000000000000000000000000000066096065096064096064093065093000000000000066095066098064097064096065096066096066095066096066097066098063098064097064096065096066096066097066098064100064100063100063098066098066098067101066102064103064101064100063100065099067101066102067103066103064102064101064100064100066102067103066104064104064103064102064101064103067103066104067105065106064104064103064102066103066104067105065106064107064107064104064103064104067105065106067106065109063107065108064107064107067106066108066109065113063112064112064111066110067111067111066113065114064114063112064112065110067111066113066114065117063116064116063114064115066115066116067117066118064118063118064116066118066118067119066118065121065120064118063118066118067119066118066119))
 (.node 1 (.leaf 65124063123064123064122064122066122066123066124065125064125063123064123066123066123066124065125064126064126064125063126064125065125066125066126064129063129064129064126064126066126066129065129066131064131064130063131065129067131065130066131066134063132064131064130065130065130066131066132065135064133063132064131066131066131066132066135065136065135064133063132066134066132066135065136064137063137063137063136064137066137065136066137065141064139064138063137064137066137066138066139066141065142064139064138065138066138066139066140065146063146063144064142065142067143065143067145065147063147063146063144065143065143067145066145065150063148063148063148064147067146066147067148065153063153064152064151064151066151066152065152065158064156064155065155066155066154067157066158066159064159064156064155065155067157066158067158065161064161064160064159066159067158066160066161066161064162064161064160066159066160066161066162065172063171064171063170064169067169066171066172000000000000064174064173064173066173066174065175000000000000000000000000000000065175066175065177000000000000000000000000000000065177066179065179065210063209064207064206065206000000066207066208065211064209063209064207065207066207066208066209065215063214064214064213064212066211066212065215065216063216063214064214065212066212065215066216064221064222064221064220064220065219065219065221064223063224063223064222064221065221066221066222064224063224063224063223064222066221066222066223064225064224063224063224064223066222066223065225064226063226063225064224064225065225065225066226)
 (.leaf 64227063228063226063225065225065225066226066227065233063233064230064229065229065229066230066233065234063234063233064230065230066230066233066234000000000000000000000000000000000000000000000000000000000000000000000000000000000000000000000000000000000000000000000000000000000000000000000000000000000000000000000000000000000000000000000000065350000000000000000000000000000000000000000000064351064351000000000000000000000000000000066349064353000000000000064351064351066349066352067353065354000000000000000000064352066352067353067354065355000000000000000000064353067353067354066355000000000000000000000000000000000000000000000000000000000000000000000000000000000000000000066377000000000000000000000000000000000000066377066380000000000000000000000000000000066377066380000000000000000000000000000000000000066380000000000000000000000000000000000000000000000000000000000000000000000000000000000000000000000000000000000000000000064383000000000000000000000000000000000000066387063388065386065385066385066385066386067388066389063389063388065386066387066386067388067389065391065390063389063388066387067388067389067390000000000000000000064393000000000000000000000000000000000000000000000000000000000000000000000000000000000000000000000000000000000000000000000000000000000000000000000000000000000000000000000000000000000000000000000000000000000000000000066402000000000000000000000000000000066402065403066404000000000000000000000000064403065403066404066407000000000000000000000000000000066404066407000000064412064411065410064409065409066409066410066411)))
 (.node 2 (.node 1 (.leaf 66413064415064412064411064412066411066412066413065416063415064415064412066413066412066413065416064416064415063415064415066413066413065416065416064422064422064419063420065418065419066421065422064424063423063423063423064423065422067423067424066425064424063423063423064424067423067424066426066426064427064424063423064424067424066426066427064428064428064427064424066425066426066427067427065429063428064428064427066426066427067427066427066430065429063428064428064428067427066427066430065432063431064431065429066430066430066431066432065433064431063431064431066430066431066432066433065439064439063437063436064436065435066436066439064440064442064441064440064439066440067441066442066443065443064442064441064440067441066442067442065444063442065443064442064440066442067442067444065449064447065446065446066446066447067447067448066449065450064447065446065446067447067448067449066454064455064454064451065451067452066454067455064456064456064455064454065452066454067455067455064456064457064456064455066454067455067455066455065458064458064457064456064456067455066455067456064458065459064458064457064456066455067456067458066464063465063464063463066462066462066463067465066466063465063465063464065463066463067465067465066467064466063465063465066464067465067465067468066467064467064466063465066466067465067468066467064473063473064473064470065470065471067472065473064477064477063477065476065475066475066476067478065481064481063480064477064477067478065478066479065482064482064481063480065478065478066479066482065485064485064484064483064483067483066484066485)
 (.leaf 64486064486064485064484066484066484066485066486066488064488064487064486064486066486066487066488065489065489064488064487066487066487066488066489065490065489065489064488066488066488066489066490065498064498063496063496065494065495066497065498064498063497064498063496064497066497065498065498064499063499064498063497064498065498066500066501064502064500063499064498064499066500066501065501064502064502064501064500064502065501066501066504064503064503064502064501065501066501066504066505064505064504064503064502064502066504066505066506064512063512063512064512065510066510067511066512064514063513063512063512065511067511066512066513064515064514063513063512064512066512066513066514064517064517064514063513064514066513066514066515065518063518064517064514064515066514066515066516064519063519063518064517064517066515066516066517065521063521064520063519064519066517066520065520064527064526063525063525064525065525065525065528064527064527064526063525064527065525065528065528064530064529064528064527064527065528066528066529064531064530064529064528065528066528066529066532066533064533064532064531065531065532066532066533064543063543064542063541064542065541066542066543064545064544063543064542065542066542066543066546064546063545064544063543064543066543066546065546065549063548064546063545064546065546066546066547064549064548063548064546065546066546066547066550064550064550064549064548064549066550065549066550064559064558063557065556065556065557065557066558064561063561064559064558064559066558066561065561065564064564064561063561064561065561066563066564))
 (.node 1 (.leaf 64564064565064564064561064561066563066564065564066571064572064569065569066569066570066571065572065573065573064572064569065569066571065572066573064580063579064578063578064578065577066578065580064582064583063582063579064580065580065582066583064587063586063586063585064585066584065585065587064590064589064588064587065587065587066588066591065593064591064590064589064590066591065592066591064595064596064595063593064592066592066595066596065597063596064596064595065593066595066596065597065598064596063596064596064595066596065597065597065601063600063600064599064597067598065600065601064606063605063605063603065602066602065603065605064607064607063607064607064607065606065608066609065611064609063608064607064607066609066610066611065612063611064609063608066610066610066611065612065617063615064614063614064613066615066616066617065618065618063615064614065614066616066617066618064621064622064621064620064620066620065621066622066624064626064625064622065622065622065623066624065629063629063627063627065625065626065626066627065630063629063629063627066628065626066627065629065634064632064631064630064631066630065631066632064634064633064632064631064631065631066632065634066637064635064634064633064634065634066636000000000000063639064636064635066637000000000000000000000000065639063639064636000000000000000000000000064676000000000000000000000000065673066673066674064676063676000000000000064673066673066674066675064677063676063676000000064676066674066675065677066681064679063679064677064677066677066680066681065682064682064679063679065678066680066681067681)
 (.leaf 66681064683064682064679066681066681067681066681000000000000000000000000000000000000067039067042000000000000000000000000000000067039067042067043000000064044000000000000000000067043000000000000000000064044064044000000066042000000000000000000000000000000064044064044000000000000000000000000000000000000000000064044000000000000000000000000000000000000000000000000000000000000000000000000000000000000000000000000000000000000000000000000000000000000000000000000000000000000000000000000000000000000000000000000000000000000000000000000000000000000000000000000000000000000000000000000000000000000000000000000000000000000000000000000000000065093000000000000000000000000000000000000000000065094065093000000000000000000000000000000067101065099066098066098066097067097067098067101066102064100065099066098066098067098067101068102067103064103064100065099067101067101068102067101067106064107065106064104067105068104067104067105066108066108064107065106065106067104067105068108066109065109066108064107067106067105068108067109066113065113065110066110067111067111067112067113066114065114065113065110067111067112067113067114067119066118066118065117067117067117067118067119066122064122065121066118066118067120067121068122066123066123064122065121066119067121068122068122066129065127064126064126066125067125067128066129065129064129065127064126066126067128066129067130065130065130065129064129065129067130067131067132066135065135066134066131066131066132066132067135067143065142066141066141066140068142068142068143065143065143065142066141067143068142068143067143))))))
 (.node 16 (.node 8 (.node 4 (.node 2 (.node 1 (.leaf 67145065146065143065142067143068143067143068145067146064147065147065146067145068145068146067146067148065150065149064147067146067146068148067148066151064151065150065149066147068148067148068150066152065152064151065150067148067148068150066151067154065155065154065153065152068152068153067153066158065158065155066155066154067156068156067158067158066159065158065155067157068156067158067159065164065165065164065163065162067163067164067165066166065166065165065164065164067164067165067166066167065167065166065165065164067165067166067167066171065171064169064169065169067169067170067171066172065172065171064169067169067170067171066172066179000000000000000000066175066176068177066178000000000000000000000000065179067180066181066182000000000000000000000000000000067183000000000000000000000000000000000000000000000000000000000000000000000000000000000000000000000000000000000000000000065206000000000000000000000000000000067206065215065215065212064212066211066211068213068214066216065216065215065212066212068213068214066215065219064220064219065218065218066217066217067220065219064221064220064219065218066217067220066221065221064221064221064220065219067220066221066221065225064225064224064223066222067222067223066225065228064229064227064226066226066227066227067228065229065229064229064227066227066227067228066230066233065233065230065229065229066230067230067233066234065234065233065230066230067230067233067234000000000000000000000000000000000000000000000000000000000000000000000000000000000000000000000000000000000000000000000000000000000000000000000000)
 (.leaf 65350000000000000000000000000000000067348066352064352064351065350000000067348068350067352067353064353064352064351066349068350067352000000066355065355065354064353067353000000000000000000000000000000065355065354067354000000000000000000000000000000000000000000000000000000000000067376000000000000000000000000066377066378066380000000000000000000000000000000000000000000000000000000067389066389066387066387066386067388068388000000067391065392065391066389067389000000000000000000000000000000065392065391067390000000000000000000000000000000000000065392067391000000000000000000000000000000000000000000000000000000000000000000000000000000000000000000000000000000000000000000065403064403000000000000000000000000067402066404066407000000000000064403065403066404067404066407000000000000000000000000066404067404066407066407065416065416066413066413066412067412066413068415065416064416065416066413066413066413068415066417065417065416064416065416065416068415066417066417065419065418065417065416065417066417067417067420066421065421065418065417067417067417067420066421065422064422065421065418065419067420066421066421067423064424064423064422065422066421068422068422067424064424064424064423065422068422068422067423066426066425064424064424067423068422067423068424066430066430065429064428067427067428067429066430066431066430066430065429066427067429066430067431065435064436065436065435065435066434068435068436066439065439065438064436065435068436068437068439))
 (.node 1 (.leaf 66440064439065439065438066436068437068439067440067442066443064440064440067441067441067442067443067445065446065445065444067444067444067445067446066447066446065446065445067445067445067446067447067449066449065449065446067447067448067449067450067455066454065452065451067452067453067454067455067456065458064456064456067455068456068456067456067458064458065458064456066455068456067456067457065460065460064458065458067456067456067457068458066461066461065460064458067458067457068458067461067462065462066461065460065460068458067461067462067465066466066464065463066463066464068465067465066471065469066468066467066467068467067468067469065471065470065469066468067468067468067469068471065473064473065473065470065471068471068471068473067475065474064473064473065473068473068473067474067478064477065476065475066475067475066476067477065478065478064477065476066476066476067477067478067483064483065482065481066479066480067482067483066485065485066484064483067483067483067484067485065494064494065494065493065493066492067492067495065495065494064494065494065493067492067495067496066497064497065494064494065494067495067496067497065498065498064497065494065495067496067497066497066500064499064498065498065498066497067499067500066501064499064499064498065498067499067500067501066504064502065501064502065501066501067501067504066505064503064502065501066501067501067504067505067511065511065510065509066509066509067510068512066520064519064519065518066516067516067517067518065520065521064519064519066517067517067518068520065523065523064521065521065520068520067520067521)
 (.leaf 65524064524065523064521065522067520067521066524065524064524064524065523065523067521066524066525065528064527064527064525065525067526066527066528066532064531064530065528066528066529067529066532065532065531064531064530066529067529066532066532066541065539065538065537066537066538067540066540065546064546064545064543066543066544066546067547066550064549065549065546066546066547066547067548065549065549064549065549066547066547067548067549065553065552065551064550066550067550067553067554065554065553065552065551066551067553067554066555065554064554065553065552065553067554066555066556065557065557065556065555066555066556067558066558066561065559064559065557065557066558067558067559065561064561065559064559066558067558067559067562066567065565064565064564065564067563067564067565066570066569065567065566065567066567067567066569065573065574065573066571065572067572066571066573066576064575065575065574065573066573067575066575065577064578065576064576065576067575066576067577065580064580065578064578065577067577068579066580066583064582065580064580065580066580066582068581065585065585064585064585065583067583067584067585065587064587065585064585066584067584067585067588065587065587064587065585065585067585067588067589066591064590065588065587065587067589067590067591065592065590064590065588066588067590067591066591066595065593064592065593066591067591067592067593066596064595065593064592066592067592067593068595067598064597065598065597065597068595067596067597065600064599064597065598065597067596067597067598065601065601064599064597067598067597067598068600)))
 (.node 2 (.node 1 (.leaf 66602065602065601064599065600067598068600067602065602064603065602065601065601068600067602067603065606064607064606066604065603066603067604067605065608065608064607064606065605067604067605068606066609064607065608064607065606067605068606066609066610066610064607065608065608068606066609067610065613065612064613065612065612067610067613067614066615064613065612064613066611067613067614067615066616065614064613065612065613067614067615066616065626065625066624065623065623066624067624066626065629064630065630065629066627066628066628066630065631064631064631064630065629066630067630067631065634064634065634064631065631067631066632000000066636065636064634065634066632066632000000000000000000066637065636064634065634000000000000000000066680065678064677064677065677067678068679067680066681066681065678064677066677068679067680067681065683065684066681065682067681067682067683067684066685065685065684066681066681067683067684000000000000000000065685065684065683067684000000000000000000000000000000000000000000000000000000000000067042000000000000000000000000000000000000000000067043000000000000000000067039000000000000000000000000000000000000000000000000000000000000000000000000000000000000000000000000000000000000000000000000000000000000000000000000000000000000000000000000000000000000000000000000000000000000000000000000000000000000000000000000000000000000000000000000000000000000000000000000000000000000000000000000000000000000000000000000000000000000000000000000066095000000000000000000000000000000000000000000066096066095000000000000000000000000000000)
 (.leaf 67101067101066098066097067097000000000000069100068102066102067101066098067098000000069100068102067109066109066108067106067105068107069108068109067110066110066109066108068108069108068109068110067125065125066124066123068122068123067124067125067128066126066125065125066125068124068127069127066129066129066126066125067125068127069127068129067135066135066132066131066132067132068134067134066137065136066137065136066136067134068137068138066138066137065136066137066137068137068138067138067141066139066138066137066138067138067138068141068142066140066139066138067138067138068141068142068143067143067143066140068142068142068143069144068145067145065143067143068143069144068145068146068148066147067146066145068146068147068148068149068150066151067148066147068148068149068150069151066151066152066151067148067148068150069151069151068152065152066152066151068150069151069151068151068153067153065152066152066151069151068151068154068156067157066154067154067153068155068156068157066162066162066161066160066160067159068159068162067164065164065162066162066162068162068163067164066174066174066173066172066172068172068173067174068177065177066175065175067174067175068175068176066178066179065177066175066176068175068176068177067180065179066179065177068177068176068177069180066181000000065179066179066178068177069180067180067183000000000000000000066181067180067182068183000000000000000000000000000000000000000000000000000000000000000000000000000000000000000000000000000000000000000000000000000000000000000000000000066211066211066210066209067209068209068210068211))
 (.node 1 (.leaf 68213066212066211066210067210068210068211068212068214065215066212066211066211068211068212068213066215066216065215066212068213068212068213068214066216066217066216065215068214068213068214068215066217065218066217066216066215068214068215067218066217065218065218066217066216068215067218068217066221065219065219065218066217068217068220068221066225065225066223066222067222068222067223067225066227066226065225065225066225067225068225067227066230065229065228066227066227068227068230067230067233066233066230065229066230067230068230068231067234066234066233066230067230068230068231067234000000000000000000000000000000068237068238000000000000000000000000000000000000068238000000000000000000000000000000000000000000000000000000000000000000000000000000000000000000000000000000000000068350066349000000000000000000000000000000000000067352066352066349000000067348000000000000068350000000067353066352066349068350000000068350068351066378066377000000000000000000000000068376068377066380066380066377000000067376068376068377000000000000000000066380066377066378068377000000000000000000000000000000066380066380000000000000000000000000000000000000000000000000000000000000000000000000000000000000000000000000000000000000000000067388066386066385000000000000000000068385068386068388067388066386066385067385068385068386000000000000000000000000067391000000000000000000000000000000000000000000000000000000000000000000000000066404065403066402000000000000000000068402069404066407066407066404065403066404069404068406069406066407000000066407066404067404068406069406067408)
 (.leaf 66407065408000000066407066407069406067408069407066409066409066408065408066407069407067408069409066411066410066409066408067408067408069409068410066411066411066410066409066409069409068410067412066413066413066412066411066411067412067412068413068415065416066413066412067412067412068413068414066417065416065416066413066413068413068414068415066417065417065416065416068415068414068415068416067420065419067417065417066417068416068417068418066421066421065419067417067417068417068418067420068422067423065422065422066421067421069421068422067428067427066427066426068424068424068425069427066432066432066431066430066430067429068429068432068433066434066433066432066432068432068433068434066434065435066434066433066432068433068434068435068435066434065435066434068433068434068435069436068436065435066434065435066434068435069436069436068437066436065435066434068435069436069436068438068439066439066436065435068436069436068438068439067440066440066439066436068437068438068439067440067441067441066440066439068439068439067440069440067461066461065460067458067457069458069458068459067462067462066461065460068458069458068459069461066464066463066462066461068462069462068462068463068465067465066463066462067462068462068463068464068467067468067465067465068465068464068465068466068467066467067468067465067465068465068466068467068471065471066471067468067468068468068469068470068471067472065471066471067469068469068470068471068473066473065473067472068471068471069473068473066476066476066475067475067474068474067475068476067482066482066479065478067478067479068479068482))))
 (.node 4 (.node 2 (.node 1 (.leaf 67483067483066482066479066480068479068482068483067496065495065494065493067492067493068495068496067500066500065498065498066497068498067499068498067504066504066501065501066501067501068503068504067505066505066504066501067501068503068504068505066509065508065507065507066508068508068509067509068513066512067511066510067510068510068511068512068513066513066512067511068512068511068512068513068520065520066520066517067517068517068518068519066524065524065523065522067520068520069521068522066525065524065524065523067521069521068522068525067526065525065524065524066524068522068525067526066527065525065525065524066525068525067526068527066529066528065528065528066528067527068527067529066532066532066529066528066529067529068529068530066532065532066532066529067529068529068530067532066534066533066532065532066532067532067532067535066534066534066533066532067532067532067535067535066538066537066536066535067535067535068538067539067540066538066537066536067536068538067539068538066543066542065541065541066541068540068541068544066544066543066542065541067541068541068544068545066546066546066543066542066543068544068545067546067547065546066546066543066544068545067546067546066556066555065554065554066555068555067556068555066558065557065557066555066556068555067556068559067562065561066561066558067558067558068559069562066562066563065561066561067559068559069562069562066567065567066567066566067564068566067565068568067571066571066570066567067567067568068568068571067572065572066571066570066569068568068571067571067575065574065573066573066571067571069573068575)
 (.leaf 66575066576065574065573066573069573068575067575066576066576065576066576066575067575068575068576068579066578065577066576066576068576069578069578066580065580066578065577067577069578069578068579066582065582065580066578068579069578068579068580068581066583065582065580066580068579068580068583067588065587065585066584067584068586068587067588067589065587065587065585067585068587067588069588068595066596066595066592067592069592068593068594068595065597066596066595067593068593068594069595068600065601065600067598067597067598068600069600067602066602065601065600067598068600069600068602067603065602066602065601068600069600068602068603068606065608065606065605067604067604068605068606066609066609065608065606067605068605068606069607067610066610066609065608068606068606069607069609066610066611066610066609066609069607069609068609067613066611065612066611066610068609067612068613067620066620066619066618066617067617069618067620067623065622066622065621066621067620069620067623066626065626066624065623066624067624069624067626066628066627065626065626066626067626067626067628066630065629065629066627066628067628068630067630066632066632065631066630067630068632000000000000000000065634066632065631067631000000000000000000000000066636065634066632066632000000000000000000000000000000066636065634000000000000000000000000000000000000000000066636000000000000000000000000066672000000000000000000000000000000000000068671066673066673065673000000066672068671068672068673066674066674066673065673067672068672068673067675067678065677066675066674066674067675067675067677))
 (.node 1 (.leaf 66685000000000000000000000000000000000000000000000000000000000000000000000000000000000000000000000000000000000000000000000000000000000000000000000000000000000000000000000000000000000000000000000000000000000000000000000000000000000000000000000000000000000000000000000000000000067039000000000000000000000000000000000000000000067042067039000000000000000000000000000000000000067043067042067039000000000000000000000000000000000000067043067042000000000000000000000000000000000000000000000000000000000000000000000000000000000000000000000000000000000000000000000000000000000000000000000000000000000000000000000000000000000000000000000000000000000000000000000000000000000000000000000000000000000000000000000000000000000000000000000000000000000000000000000000000000067097000000000000000000000000000000000000000000067098067097000000000000000000000000000000069100067101067098067097000000000000000000000000068102068102067101067098000000000000000000070100069101067101068102067101069100000000070100069101069104068104067102067101069101069101070103069103069108068108067105067104068104069104068105069108067111067113067112067111067111069111069112068112067114067115067114067113067111068112068112069113068116067116067115067114068112068112069113069116067117067117067116067115067114069113069116068117067120067121067120067119067119068117068118069121068123068122068122067121067120069121069122069123069127067128067125066125068124068125069125069128067129067130066129067128069127069128069129069130068132067132067131067130067129069130069131069132)
 (.leaf 67132066132067132067131067130069131069132070133067134067135066132066132067132070133069134068134068137066137066136067135067134068134069134070136068138066137066137066136067134069134070136070137068141067141067138066138067138069137069138070140068142068142067141067138067138069138070140069142068162066162067161066160067159069160068161068161068169067169067168067167067166068166069168068169068170067170067169067168068166069168068169069170067175067174066174066174067174069174069175068175069180067180066178068177068176068177069177069180067180066181067180066178068177069177069180069181067182066182066181067180069180069180069181069182068183067183066182066181067180069181069182069183068184000000067183066182067182069182069183068183000000000000000000000000000000068186069188069189000000000000000000000000000000069188069189000000000000000000000000000000000000000000000000000000000000000000000000000000000000000000000000000000000000000000000000000000000000000000069204069205067218066217066216066215068214069214069215069216068220067220066217066217067218069216069217069220068221066221067220066217068217069217069220068221067227066227067225066225067225068224070227069228068230067228066227066227067227069228069229068229067234067234067233067230068230068230069231069234068235067235067234067233068231069231069234069235068236067236067235067234067234069234069235069236000000000000000000000000000000000000000000000000000000000000000000000000000000000000000000000000000000067348000000000000000000000000000000000000000000068350067348000000000000000000000000000000)))
 (.node 2 (.node 1 (.leaf 68354000000000000067352068350070351070352070353068355000000000000000000068351070352070353070353000000000000000000000000000000069356069357000000000000066380066378067376068376000000069377000000000000000000066380066378068377069377000000000000000000000000000000066380000000000000000000000000000000000000000000000000000000000000000000000000000000000000000000000000000000000000000000000000000000000000000000000000000000000000000000000000000000000000000000000000000000000000000000000000000000068388067388067385068385000000000000000000069404066404067402000000000000000000069402069403068406067404066404067402068402069402069403069404069406066407067404066404069404069403069404069405069407066407066407066407069406069405070407070407067408067408066407066407067408070407070407069408069409066409067408066407069407070407069408069409067412066411066411066409069409069409070411069411067412067412066411066411068410070411069411069414067420066421067420067417068417069417069418069419067421066421066421067420068418069418069419069420069421068422066421066421067420069419069420069421069427067428067425068424068424070425070426070426067429067429067428067425068425070426070426069427067429066430067429067428069427070426069427070430068432066432067431066430067429070430070430069432068433066432066432067431068429070430069432069433067441067442067441067440067440069440070441070442068443067443067442067441069440070441070442070442068444067444067443067442067441070442070442068444069446067448067447067446067446068444069445069446067448067449067448067447067446069445069446069449)
 (.leaf 67450067450067449067448069446069446069449069450068451067451067450067449067448069449069450069451068452067452067451067450067450069450069451068452067455067455067454067453067452068452069452069455068457068456068456067455067455069455069456069457069461067462067461068458069458069458069459069460069462068462067462067461068459069459069460069461069473068473068471068471068470069470070472069472067479067478067477066476068476068476069477069478068482067482066480067478067479069478069481069482068483067483067482066480068479069481069482069483067487067487067486067485067485069485069486068487068491067491067490067489067489069489069490068491068496067496067495067492067493068493069495069496067499067499066497067497067496068496069498068498067500067501067500067499067499068498069498000000067501066501067501067500068498069498000000069500068503067501066501067501067500000000069500069503068504067504067501066501067501069500069503069504069521067521067520068520068519069519069520070521068525066525066524067521069521070521069522069525067526067526066525066524068522069522069525068526067529066529067527066528067527069526069527069528067532067532066532066532068530068531069531069532067535066534067532066532067532069531069532069535067535066534066534067532067532069532069535068535068538067536067535066534067535068535068535068537068545066544066543067541068541068542069544068544067546066547067547066546067546069544068545069546067548066547066547067547067546068545069546069547067550067549067548066547067548069547069550068551067551067550067549067548068548069550068551068551))
 (.node 1 (.leaf 68555066555067554067553067552068551069552068554067556067558066556066556067556068555069555068557067558067558066558067558067556068557068559069558069562067562067559067558067558069558069561069562069562066562067562067559068559069561069562069563067563066562066562067562069562069562069563069564067565067565067564067563068563068564069564068566067568067567066567067565067565068566068568069567068571067571066569067567067568069567070569068571067571067572067571066569068568070569068571068571068575067575066573066571067571068572069574069575067575066575067575066573069573069574069575068575069578067577066576067575068575068576069576070578069578068579067577066576068576069576070578069578067583067582068581066582068580068581070582069582068587067585067584067583068583068584069586069587068591067591067590067589069588069589070590070590069592067592067591066591067591068591069591069592067598067597067596068595069595069595069598069599068600067598067597067596068596069598069599069600069600068600067598067597067598069599069600069601069607066609068606067605068605068605069606069609069609067610066609068606068606069606069609070610067612067610066610067610069609070610069609069610068613067613067610066610068609069609069610069611068614067614067613067610067612069610069611070613067617066617067617066616067616069614070616070617069618067619066617067617069616070616070617070618067620067620067619066617067617070617070618070619067620066621067620067619069618070618070619070621069620067622066621067620067620070619070621070621067623067623067622066621067620070621070621070622)
 (.leaf 67623066623067623067622069620070621070622069624067624066624066623067623067623070622069624069625069624067624066624066623067623069624069625070626067626066626067624066624067624069625070626070626067626067626066626067624069624070626070626069626067628066628067626066626067626070626069626069629068630066628066628067626067626069626069629070629067630066630066628066628067628069629070629000000000000067631067630066630067630000000000000000000000000000000066632067631000000000000000000000000000000000000000000066632000000000000000000000000067675066674066673067672068672069672069673069674067675066676066674066673068673069673069674069677067677067678066676066674067675069674069677068678068679068679067678066676067675069677068678068679068682067682067681067680067679068679069679069682067682067683067682067681068679069679069682069683000000000000067684067683067682069683000000000000000000000000000000000000000000000000000000000000000000000000000000000000000000000000000000000000000000000000000000000000000000000000000000000000000000000000000000000000000000000000000000000000000000000000000000000000000000000000000000000000000000000000000000000000000000000000000000000000000000000000000000000000000000000000000000000000000000000000000000000000000000000000000000000000000000000000000000000000000000000000000000000000000000000000000000000000000000000000000000000000000000000000000000000000000000000000000000000000000000000000000000000000000000000000000000000000000000000000000000000000000000000000000000000000000000000000000000000000000000000000000000000000)))))
 (.node 8 (.node 4 (.node 2 (.node 1 (.leaf 69100000000000000000000000000000000000000070103069104069101068102070100070102071102071102070109068109069108068107068105070107069106070107069111067111068110068109070109070107070110071111068117067117068116067114069113070113069114070115068117067119067118067117068117070115069118070117069121067120068120067119068117070117070120069121069122068122067120068120068118070120069121069121068125068124067125067124068124069123069123069125069128069127068127068124068125069125070125070126068134067134068134067132070133070133070134069134070136068137067134067134068134069134069134070135070137068138068137067134069134069134070135071137070140068141067138067138069137070137070140070141069142068142068141067138069138070140070141070142068142068143068142068141070140070141070142070143068144068145069144068143068142070143070144069144068147068147068146068145068144069144070144069147070154068155068154068151068153070153070154070155068156068157068156068155070154070155071156071156068158068158068157068156068155071156071156070158069159068159068158068157068156071156070158070159069160067159068159068158068158070158070159070160069163068163068162068159068161070161070162069163068164067164068163068162068161070162069163070164068169068169068166067166068166070165070168070169068171068171068170068169068169070169070170069171069180069180068177068176068177070178070179069180069181067180069180068177069177070179069180069181068185000000067184068184068183070184069183070186068186000000000000067184069183069183070186070187069188000000000000000000068185070186070187070188)
 (.leaf 69189000000000000000000068186070187070188069189000000000000000000000000000000069190069192069192000000000000000000000000000000069192069194069194000000000000000000000000000000069194000000000000000000000000000000000000000000000000070202070203068221068221068220068217069217069218070220069221068224067225067223068222068223069223069223070224070227068225067225067223068223069223070224071227069228067227068225067225068224070224071227071227069229068227067227068225070227071227071227070229069234067234068231068230068230069230070233070234069235068235067234068231069231070233070234070235000000000000000000000000000000070242000000000000000000000000000000000000000000000000000000070345000000000000000000000000000000000000070345069345000000000000000000000000000000070347069346000000000000000000000000000000000000069346000000000000000000000000000000000000000000000000000000000000070351068350000000000000000000000000000000000000070352068351068350000000000000000000000000000000070353068354068351068350070351000000000000000000070353068355068354068351070352000000000000070353069356000000068355068354070353000000070353070356069357000000000000068355070353070353070356070357000000068376000000000000000000000000000000000000000000000000068377068376000000000000070377000000000000000000000000068377069377070377000000000000000000000000000000000000000000000000000000000000000000000000000000000000000000000000000000000000000000000000000000000000000000000000000000000000000000000000000000000000000000000000000000000000000000000000000000000000000000000000000000000000))
 (.node 1 (.leaf 68385000000000000000000000000000000000000000000068386068385000000000000000000000000000000000000000000068386068385000000000000000000000000000000000000000000068386000000000000000000000000000000000000000000000000000000000000000000000000000000000000000000000000000000000000000000000000070411068410069409067408069408069408070409070410069414067412067412068410070411070410070411071413069415068413067412067412069411070411071413071413068417068416068415068414068416070416071416070418070425068424068423068422069422070422070423070424070426068425068424068423069423070423070424070425070426069427068425068424070425070424070425070428070430067429067429069427070426070428069429070430069432068432068429067429070430070430070431071432069433068433068432068429070430070431071432070431069436069436068435068434070434070434070435070436069440067440068439068438070438069437070439071440070441069440067440068439070438070439071440070441070442068443067441069440070441070441070442070443068444068444068443067441070442070442070443069443068444067446068445068444068444069443071444071444069449067448069446067446069445070445070446070449069450067450067448069446069446070446070449070450069455067455068454067452068452070453069452070453069456068456067455068454069452069452070453070456068463068463068462069462069461070461069462070463068466068465068464068463068463070463069464069466068469068467068466068465068466069466069466070467069470068468068467068466068468069466070467069470068470068469068468068467068469070467069470069471068475068474068473069473069472070472070473070474)
 (.leaf 69482068482068479067479069478071479070481070482069489067489068488067487068487071486070488070489068492067492067492068491068491070489070490069492069496068496068495067493068493069493070495070496068498067499068498067496068496000000070498069498069503068503067501067500000000069500069500070503069504068504068503067501069500069500070503000000070511068510069509067509069508070508071510071510070511068511068510069509070510071510071510070511070513068512068511068510070511071510070511000000070514068513068512068511070511070511000000070513070515068514068513068512070513000000070513070514070517068516068515068514070515070514070515070516070518068518068517068516070517070516070517070518069525068525068522069521070521070521069524070525068535067535067535067532069532070532069533070534068538067539068538067535068535069536070536070539069540068538067539068538068537070536070539069539068545067546067546068545068544069543071544070545068551067550068548067548069547070547070548069550068551067552067551067550068551069550070550069552068554068555068552067552068551069552069554069555068557067556068555067556068555069555069555070558068559068559067556068555069555069555070558069558069561068559067558068559068559069558070558069560068566067565068566068563068564069564070566069566070569068568067568068568068568069567070569069570068571068571068568067568069567070569069570069570068572067571067571068571068571069570070570070571069574069573067571067571068571070570070571069573070578069578068576068575068576070575070578071577068581068580068579069578069578070578070579071580)))
 (.node 2 (.node 1 (.leaf 70582068583068580068579069579070579071580070581068584068583067583068583070582070581070584069585069586068586068583067583069582070584069585071584068591067591068591068590070590070590069591069591069598068596069595068594069594069594069597070598068604067603068603068602068601070602069601070604069605068605067603068603068602069601070604070605069606067604068605067603068604070604070605069605070610069609069607068606069606071607069609070610070613068614068613067612069610070612071613070614070614068615068614068613069611071613070614071615070616069616067616068615070614071615071615070615070618069618067617069616070616070615070616070617070621067620067620069618070618070617070618070619070622067623069620067620070621070619070620070621069624067623067623069620070621070620070621071623069625067624067623067623070622070621071623071625069629067628067626067626070626070627070628070629070629068630067628067626069626070628070629070630000000068632067630068630070629070630000000000000000000000000068632067630000000000000000000000000000000000000000000068632000000000000000000000000000000000000000000000000000000000000000000000000000000000000000000000000000000000000000000000000069677067675067675068673069673070673070676070677068678067677067675067675069674070676070677069678069682068682068679067679068679070680071681000000069683067682068682068679069679071681000000000000000000000000000000000000000000000000000000000000000000000000000000000000000000000000000000000000000000000000000000000000000000000000000000000000000000000000000000000000000000000000000000000000)
 (.leaf 71102069101070100000000000000000000071100071101069105069104069103070103071102071102071103071106069106069108068105069104069105071106070105071108071113068112069112069111071111071109071112072113069113068112068112069112071111071112072113071114069114069116069113068112069113071114072114071114069118068117068117069116069114071114071115071116070120068118068117068117069118071116071117070120069121069121068118068117070117071117070120070120069123069123069122069121069121070120071122070123069123068124069123069122069121071122070123070124069129069129069128069125070125071127071128071129071130069130069129069128070126071128071129071130069131069131069130069129069129071129071130070131069132069132069131069130071130071130070131070131070134069134070133069132069132070131071131071134070140069138069137070137071137071138071139071140070141070140069138069137070137071139071140071141069147068147069144068144069144070144071144070146069148069149069146068147069147070146071148070148070152069152069151069150069149070149071151070152))
 (.node 1 (.leaf 70158068158068156068155071156072155072155071158070159069159068158068156071156072155071158071159069164069165068164069163069163071163070164070164070168069168068166069166070164071166071167070167069174069174069173068172069172071170070173070173069177069177068175069175069174070174071176071177070178068177069177068175069176071176071177070177069181069182069181069180069180071180071181070181070184068183069183069182069181070181070183072184069192000000000000000000069189072190070191070191069194000000000000000000069192070191070193071194000000000000000000000000069194071194071195000000000000000000000000000000069194071195000000000000000000000000000000000000000000000000000000000000000000000000000000000000000000000000000000071201069205069205069204000000070203071203071204071207069208069208069207069206070206072206071207071208071209069209069208069207070207071207071208071209069212069212069211069210070210071210071211072213069218069217069216069215070215071215071216072217070220069220069217069216070216071216072217071220069221068221069220069217069218072217071220070220069223068223068223069222070220071220070221071222069223068223068223068223070221070221071222071223071227070227068224068223069223071223071226071227071227069228070227068224070224071226071227071228071229068229069229069228071227071228071229072230069230068230068230068229071229072230072230071230070233069231068230068230070229072230071230071231070234069234069231068230069230071230071231071232069241000000000000000000069239072238072240071241070242000000000000000000069240072240071241071242)
 (.leaf 69241071241071242000000000000000000000000000000000000000000000000000000000000000000000000000000000000000000000000000000000000000000000000000000000000000000000000000000000000000000000000000000000000000000000000000000069345000000000000000000000000000000070343071344069346000000000000000000069345071344070347070347000000000000000000000000069346070347000000000000000000000000000000000000000000000000000000000000000000070351000000000000000000000000000000000000070356069356070353070353000000000000000000071356070357069357069356070353070353000000071356072357000000000000000000000000000000072357072358000000000000000000000000000000000000000000000000000000000000000000069377000000000000000000071377071380000000000000000000069377070377071377071380000000000000000000000000000000000000071380000000000000000000000000000000000000000000000000000000000000000000000000000000000000000000000000000000000000000000000000000000000000000000000000000000000000000000000000000000000000000000000000000000000000000000000000000000000000000000000000000000000000000000000000000000000000000000000000000000000000000000000000000000000000000000000000000000000000000000000000000000000000000000000000000000000000000000000000000000000000000000070393070394070397000000000000000000000000000000070394070397000000000000000000000000000000000000000000000000071399071413069415069414069411070411070412070412071413070416068416069415069414071413070412071413071414071416068416068416069415071413071413071414071417069418069417068417068416071416071417072417071417))))
 (.node 4 (.node 2 (.node 1 (.leaf 69420069419069418069417069418071417072419072420071420069420069419069418069418072419072420072421069429069427070426070426070425072427072427072428070431070430070430069427069429072428070430072430070434070434069433069432071432071432071433070434070435069435070434069433070431071433070434071435070442070442070441069440071440071440071441070442071444068444068444068444069443070443070443071444070450069450069449069446070446070447071447070449070456069456069455069452069452070453070453071456069456069457069456069455070453070453071456070456071459069458070457068457071457072457072457071458071460069459069458070457070457072457071458071459071460069460069459069458071459071458071459072460069462069462069461069460071460072460072462071462069464068466068463069462069462071462071463070466069466068466068466068463070463071463070466070467069470069470068469068468069466071466070467071470069471068470069470068469070467070467071470070471069471069470068470069470069470071470070471070471069476069475068475069473070473070473071474071475069479069477068476069475069476071475072476072478071479069478069477068476070476072476072478071480070481069481069478069477069479072478071480071481070482069482069481069478071479071480071481071482070485069485069484069483071482071483071484071485069485069486069485069484071483071484071485071486070488069488068487069486069485071486071487071488070489069489069488068487071486071487071488071489069492068492069490068491070489070489071492071493069493068493068492069490070490071492071493071494070495069495068493068492069492071493071494000000)
 (.leaf 70496069496069495068493069493071494000000071496069500000000069498068498069498071499000000000000069500069500000000069498069499000000000000000000070503069503069500000000069500000000000000000000000000069504069503069500069500000000000000070503069506000000069505069504000000070503072504072505071510070510069508069507070507070508071508000000000000070513070511070511071510071510071511071512069524069522070521069520070520071520071523071524070525069525069522070521070521071523071524070524069529069528069527069526070526072527070527071528070531069529069528069527070527070527071528072530069530068531069529069528069529071528072530071532069533069535069532069531070531070532071534070534069536068535068535069535069533070534071534071535070539068538068537068535069536071535072537071539069539069540068538068537070536072537071539070539070542069542069541069540069539070539070541071542069543068544069544068542069543070541071542071543071544069544068544069544069543071542071543072544069548069546068545069544071544072544072546071546069550068551069550069547070547071547071548071549069552068551068551068551069550071549070552070552069555068554069552068551069552070552070554070554069555069555068555068554069555070554070556070556069558068559068557069555069555070556070558070558069560069561069558068559069558070558071560071561069561069562069561069558070558071560071561070561070564069564069563069562069561070561071563071564069566068566069564068564069564070563071566070566070569069567068568068566069566070566071566070569069570070569069567068568069567071566070569070569))
 (.node 1 (.leaf 69573069574068572068571070570070571072571071572069574069575069574068572070571072571071572070574070578069576068576068575070574072574071577072576071577070578069576068576070575071577072576071577071580068581069579069578070578071578072579071580069585068584069582070582070581071581071584072583069586069587069586068584069585072583071584071587070589069589068588069587069586071587071588071589070590070590069589068588070586071588071589070590069593069592069591068591069591071592070593070593069594069594069593069592069593070593072593071596069597069595069594069593070593072593071596071597070598069598069595069594069594071596071597070598070599069599069598069595069597071597070598071599070605069605068604068602069601072601072604072604071607069606068605069606069605072605072606071606069609069609069606068605071606072606071606071607070610070610069609069606071607071606071607071610070611069609070610069609069609071607071610072610071625069625069624070622070621071623071624071625071625070626069625069624071623071624071625071626070627070626070626069625071625071625071626071627000000000000000000000000000000070631070631000000000000000000000000000000000000070631000000000000000000000000000000000000000000000000000000000000000000000000000000000000000000000000000000000000000000000000000000000000000000000000000000000000070676069674069673069672070672071672071673071676070677069677069674069673070673071673071676070676070680068679068679068678069678071678072678000000071681069679068679068679069678072678000000000000000000069683069682069679071681000000000000000000)
 (.leaf 69683069682000000000000000000000000000000000000000000069683000000000000000000000000000000000000000000000000000000000000000000000000000000000000000000000000000000000000000000000000000000000000000000000000000000000000000000000000000000000000000000000000000000000000000000000000000000000000000000000000000000000000000000000000000000000000000000000000000000000000000000000000000000000000000000000000000000000000000000000000000000000000000000000000000000000000000000000000000000000000000000000000000000000000000000000000000000000000000000000000000000000000000000000000000000000000000000000000000000000000000000000000000000000000000000000000000000000000000000000000000000000000000000000000000000000000000000000000000000000000000000000000000000000000000000000000071106069105071103071102071102072102071105072106072109070107069106070107070105072107072108073109071112071111071111070110070108072110072111071112070120070120070117069118071116071116072117072118070120069121070120070117071117072117072118072121071122069121069121070120070120072118072121071122070123069123069121069121070120072121071122071122071125069123069123069123070123071122072124072125070125069125069123069123070124072124072125071126071134070134070133069132070131072132072133071134071135069134070134070133071131072133071134071134071138071137070135069134072136072136072137072138071148069147069147070144071144071145071145071148070148069148069147069147070146071145071148073148071151070151069149069148070148073148072150072151070152070152070151069149070149072150072151072152)))
 (.node 2 (.node 1 (.leaf 72154070154070153070152070152072152072153072154072155071156070155070154072154072154072155072156072155071156071156070155072154072155072156072157071159070159070158071156072155072157072158073159071162070162070161070160072159073159072159072162071163069163070162070161072159072159072162073163071166070164069164070164070164072164071163072164071167070165070164069164070164071163072164072165071170070170070169070168070167072168072169072170070173070171069172069171070171071170072170072171070173069174070171069172071170072170072171072172070174069174069174070171070173072171072172071174071185069183070184069182070183072183072184071185070185070186069183070184072184072184071185071185070187070188070187070186070185071185072185071188070189069189070188070187071185072185071188072189070191069190069189069189070189072189072190072191070191069192069190069189072190072190072191073192070193069192069192069190070191072191073192072193071194069194069192069192070191073192072193072194071195069194069194069192070193072193072194072195071207069205070204070203071203072203072204072205072206070206069205070204071204072204072205072206072213069212070211070210071210072210072211072212072217069218070216070215071215072215072216072217071220070220069218070216071216072216072217072220070220069221070220069218072217072217072220071220071226070224069223069223071222072222072223072226071227071227070224069223071223072223072226072227071235070235070234070233071231071231072232072233071236070236070235070234071232072232072233072236072240069240069239070238072238072238072239000000)
 (.leaf 71241069241069240069239072238072239000000000000071242070242069241069240072240000000000000000000000000000000000000000000000000000000072242072245000000000000000000000000000000072242072245000000000000000000000000000000000000072245000000000000000000000000000000000000000000000000000000000000000000000000000000000000000000000000000000073341000000000000000000000000000000073341071341073343070343070345000000000000000000071341073343073344070347070347069345070345070343073344072344072347070347069346070347069345071344072344072347000000000000000000069346070347070347072347000000000000000000000000000000069346070347000000000000000000000000000000000000000000000000000000000000000000000000000000000000000000000000000000000000000000000000000000000000000000000000000000000000000000000000000000000000000000000000000000000000000000000000070353000000000000000000000000000000000000071356070356070353000000000000000000000000072354072357070357070356070353000000000000072354072357072358000000000000070357072357072357072358000000000000000000000000000000072357072358000000000000000000000000000000000000072358000000000000000000071380000000070377000000000000000000072377072378000000000000000000070377071377072377072378072379000000000000000000000000000000072379071382071382000000000000000000000000000000071382071384071384000000000000000000000000000000071384072386072387000000000000000000000000000000072386072387072388000000000000000000000000000000072387072388000000000000000000000000000000000000072388000000000000000000000000000000000000000000000000000000071390))
 (.node 1 (.leaf 70393000000000000000000000000071391073393072395070394000000000000000000071392073393072395073396070397000000000000000000070393072395073396073396000000000000000000000000070394073396073396071397071402070400000000000000000000073399071399071401070404070403070402070401070402072403073403073404070404069404070403070402070404073403073404073405070406070405069404070403070404073404073405072405070408069406070405069404070404073405072405071408070408070407069406070405070406072405071408072407072411070410070409069408071408072408073409072410070412070411070410070409071409073409072410072411070412071413070411070410072411072410072411072412071417071416070416071413071413073414072416073417072419069418069418070418072417073418072417073419072420069420069418069418071417072417073419073420072421070421071420069420072420073420073422073422072423070422070421071420072421073422073422072422072424070423070422070421072421073422072422072423072424070424070423070422072423072422072423073425072427070425070424070423072424072423073425073425072427070428070425070424072424073425073425073428072428069429070428070425072427073425073428073428070430070430069429070428072427073428073428072430072430070431070430069429072428073428072430072431071432071432070431070430070430072430072431071431071436070436070435070434070434071432072433071435071439070439069437070437072437072437073438072439071440071440070439069437070437073438072439072440070443069443070443070442070442073441071441071443070447070446070445071444071444071445072447071447070449070450070449070446070447071447072447072448)
 (.leaf 70450070451070450070449071447072447072448072451071452070452070451070450070449072448072451071451070456069456070456070453070453071454071456073457072462070461071460071460071459073460073460072461070466069464070463069462071462073462072463072464070467069466069464070463071463072463072464072465070467070467069466069466070467072465071466072469071470069470070467069466071466071466072469071470070471069471069470070467070467072469071470071471072476070476069476070474071474073475072475073478072478069479070476069476071475072475073478073478071480071479069479070476072476073478073478073479071492070490070489069490070489071489072489072492071493069492070490070489070489072489072492072493072504070505000000070503000000071502072504000000072505069506070505000000070503072504000000000000000000069506069506070505072504000000000000072505000000070506069506069506072505000000072505071507072514070514070513000000071512072512072513072514072517070517070516070515071515072515072516073517071523070521070520070519071519072519072520071523071524069524070521070520071520072520071523072522072526069525070526070525070524072523072524073526072527070526069525070526072525072524073526072526070527070527070526069525072526073526072526072527072530070531069529070527070527072527072528072529071532069530070531069529071528072528072529072530070532070531069530070531072530072529072530072533070534069533070532070531070532072533073533071534072537070536069536070534071534072534072535072536071539070539070536069536071535072535072536072537070539069539070539070536072537072536072537073538)))))))
 (.node 32 (.node 16 (.node 8 (.node 4 (.node 2 (.node 1 (.leaf 71542070542070541069539070539073538072541073542070541069543070542070541070541072541073542071542072546070545071544069543071543072543072544072545070552070550069550070548071548072548072549072550070552069552070550069550071549072549072550072551070554069554069552070550070552072550072551072552070554069555069554069552070552072551072552072555070556069555069555069554070554072552072555072556070556069555069555069555070554072555072556072557070558070558069555069555070556072556072557071557071560070558069558070558070558071557072559071560071561069560070558069558070558072559071560071561071564070564070563069561070561072562072563072564070566069566070566069564070563071564072566071566070569070569069567069566070566071566072566072567070569069570070569069567071566072566072567071569072571070571070570069570070570071570071570072571070574069574069573070571072571072571072572072573072574070574069574069573071572072572072573073575071577070575070574069574070574072573073575073575072576070578070575070574072574073575073575072576072579070579070578071577071577073577072578072579071584070584070581071580071580072580073583073583072583069585070584070581071581073583073583072583071587069586071584069585072583072583072586071587071588070586069586071584071584072586071587072588072593070593069593070591070593072591073592072593071596069594070593069593070593073592072593073594071597069597069594070593072593072593073594072597070600069599070599070598070598073596072597072600071602070602070601069599070600072600072601072602072601069601070602070601070600072601072602072603)
 (.leaf 72604070605070604069601072601072603073604073604072605069605070605070604072604073604073604072606072606071606069605070605072604073604072606072607071610070610069609071607071606073608073608072610072610070611070610069609071607073608072610072611072612071613070612070611072610072611072612072613071614070614071613070612072612072612072613073613070616070616070615071615072614072614073616073617070618070618070617070616070616073617073617073620071623070621070620070619071619073620072620073621071624071623070621070620071620072620073621071624070631000000070630070629070629072627071628071631070631000000000000070630070629071628071631072632000000000000000000000000070631072632073632000000000000000000000000000000070631073632000000000000000000000000000000000000000000000000000000000000000000000000000000000000000000000000000000000000000000000000000000000000000000000000000000072639000000000000000000000000000000000000072639073639000000000000000000000000000000072639073639000000000000000000000000000000000000073639000000000000000000000000000000000000000000000000000000000000000000000000000000000000000000000000000000000000071676070676070673070672071672072672072673073675070676070677070676070673071673072673073675073676072678069678069678070677070676073676072678072679000000071681070680069678072678072679000000000000000000000000071681070680000000000000000000000000000000000000000000000000000000000000000000000000000000000000000000000000000000000000000000000000000000000000000000000000000000000000000000000000000000000000000000000000000000000000000000000000))
 (.node 1 (.leaf 71100000000000000000000000000000000000000000000071101071100000000000000000000000000000000071105071103071102071101000000000000000000073103072106071106071103071102072102000000073103074105072107070105071106071103071105073103074105073107072114071114072113071112071112073112073113073114072121070120070120071117072117074117072118073119071122071122070120070120072118072118073119072121072124070124070123071122071122072121073123073124072125071125070124070123071122073123073124072125072128071128071127070125071126073126072127072127071131070131071130071129071128073129072130073131072133071131070131070131071131073131073132072133072137071137072136071135071134072134073136073137071142071143071142071141073141074141073142074143071143071144071143071142073141073142074143074143071144070144071144071143071142074143074143072145071145071144070144071144071143074143072145073146071148071148070146071144071145073146073147073148073148070148071148070146071145073147073148073149072150070149070148071148071148073148073149073150072151071151070149070148073148073149073150073151072162071162072159072159073159073160073161073162073163071163071162072159072159073161073162073163071163070164070164071163073163073163072164073163072168070167071167071166072164073164073165073166)
 (.leaf 72169071169070167071167072165073165073166072169071174070174070173070173072171073173073174073175071175071176070174070173072172073174073175073176072178070177071177071176071175073176072177072178071188070187071185070185071185072185073187072188072189070189070187071185072185073187072188073189072194071194070193070191073192073192073193073194072220071220072217071216072216072217072217073218071221070221071220070220071220072219072222072222072226071226071223071222072222073222072223073224072227071227071226071223072223072223073224073227072230072230071229071228071227072227073229072230072236071236071235071232072232073234073235073236072237071237071236071235072233073235073236073237072245000000000000000000000000073243073244072245000000000000000000000000072242073244072245072245000000000000000000000000000000072245072247073248000000000000000000000000000000000000000000000000000000000000000000000000000000000000000000000000073341000000000000000000000000000000000000000000071341000000000000000000000000000000000000073341073343000000000000000000073341000000073341074343073344070343000000000000071341073341074343073343072347070347071344070343073344073343074345073347000000070347070347071344072344074345073347000000072357072357071356000000000000072353073354074357072358072357072357071356072354073354074357073358000000000000000000072358000000072358074360000000000000000000000000000000000000074360000000000000000000000000000000000000000000000000000000073374000000000000000000000000000000000000073374072376071382000000000000071380072378072379072379073380)))
 (.node 2 (.node 1 (.leaf 71382000000000000000000072379072379073380073381071384000000000000000000071382073380073381073382071384000000000000000000071382073381073382073383072386000000000000000000071384073382073383073384072387000000000000000000071384073383073384074386071391000000000000000000000000072389073389074390071391000000000000000000071390073389074390073391073393071392000000000000071391074390073391073392072395070393071392000000071391073391073392073393073396070394070393071392073393073392073393073394071397000000070397070394073396073394072397073396073399000000000000000000071397073396074397073398071399071399000000000000071398074397073398074400071401071402071399000000073399073398074400073402072403070402071402071399071399074400073402074402073403070404070402071402071401073402074402074402073405070404070404070404073403074402073403073404071408070408070406070404073405073404073405072407073409071409071408070408072407072407073408073409073414071413070412070412072411074411072412073413072416071414071413070412072412072412073413073416073417071417071414071413073414073413073416074417073419072419071417072417073418073418074418074420073425072427072424072424072423073423074424073425073428072427072427072424073425074424073425074426072431072430070430072428073428074427073428072430071435071436071435070434071432072432073433073436072437072437071436071435072433073433073436073437073438070437072437071436071435073436073437074438072440071440071439070437073438074438074438074439071441071441070442071441071440074440074440073443071443070443071441070442073441074440073443072443)
 (.leaf 72447071445071444070443071443073443072444074445071447070447071445071444071445072444074445072447072451070450070449071447072447073447073450072450071454070453070453071453072451073451073452073455071456071456070453070453072452073452073455073456073457070456071456070453071454073455073456073457072458072457070456071456071456073456073457074456071466071466070467070466072464074464072465073466072469070467071466070467072465072465073466072468072472070471070471071470071470073468073471072472071472070472070471070471071471073471072472073471071473070473071472070472071472073471073472074473073475071474070473071472072472073472074473073474073478072478072476071475072475074477074477074477072481071481071480072478073478074477073478073481072482071482071481071480073479073478073481073482072487071487071486071485071485073485074486073487071489070489071489071488071487072487073489073490072492071492070489070489071489073490072489000000072493071493071492070489072489072489000000072493071497070497071496000000071495072494073494073495071498071498070497071496071495073494073495072497071499000000071499071498071498072497072499072499071501000000000000000000071499072499072501072501072504070503000000000000071501072501072503072503071507000000000000072505000000073506000000000000000000070508000000000000072505000000000000073507071509071508070508000000071507000000073507000000071523071523071520071519072519073519073520073521072533070532071532072530072529073531072530073531073533071534070532071532072530072530073531073532073538070539071539072537072536073536072537073540))
 (.node 1 (.leaf 72541070541070539071539072537072537073540073541073542071542070541070539073538073540073541073542072555070554070554070552072551074551074552074553072556070556070554070554072552074552074553074554071560071560070558070558071557072557073559072559072562070561071561071560071560072559073561073562072563071563070561071561071561073561073562072563071566070566071566070563071564074565073566072566071569070569070569071566072566073566073567074569071570070570070569070569072567073567074569074569071570070571070570070569071569074569074569073572073575071577072574070574072573074574074574073575073577071577072576071577073575073575073576074577073583071581071580072579072579073579073580073583073583071584071581071580072580073580073583073584072586071584072583071584073583073584073585073586071587071587071584072583072583073585073586072587071592071592071591070590071590073590072591074591073592070593070593071592071592074591073591073592073594071596072593070593073592073592073593073596072597071597071596072593072593073593073596073597073596070598071597071596073594073596073597073598072600070600071599070598073596073598073599073600072601070600070600071599072597073599073600073601072610071610071607071606073608073608073609073610072611072610071610071607073608073609073610074611073616070616072614072614073613074615074615073615073617070616070616072614072614074615073615073616073617071617070616070616073616073615073616074618073620070618071617070616073617073616074618073620073620071619070618071617073617074618073620074620073621071623071620071619073620074620073620073621)
 (.leaf 71624071624071623071620072620073620073621074623071624071625071624071623073621073621074623072625071626071626071625071624071624074623072625072625071627071628071627071626071626072625074625073626071628070629070629071628071627073626073627073628071631070631070629070629072627073627073628073631072632070631070631070629071628073628073631073632073632070631070631070631071631073631073632073633000000000000000000000000000000072634073636072636072639000000000000000000000000072636073638074638073639000000000000000000000000073638074638073640000000000000000000000000073639073640073641000000000000000000000000000000000000073641000000000000000000000000000000000000000000000000000000000000073675071676071673071672072672073672074674073674073676070676071676071673072673074674073674074677072678071678070676071676073675073674074677000000072679072678071678070676073676074677000000000000000000000000000000000000000000000000000000000000000000000000000000000000000000000000000000000000000000000000000000000000000000000000000000000000000000000000000000000000000000000000000000000000000000000000000000000000000000000000000000000000000000000000000000000000000000000000000000000000000000000000000000000000000000000000000000000000000000000000000000000000000000000000000000000000000000000000000000000000000000000000000000000000000000000000000000000000000000000000000000000000000000000000000000000000000000000000000000000000000000072102000000000000000000000000000000000000074105072106071105072102000000000000075104075105073107072107072106071105073103075104075105075105))))
 (.node 4 (.node 2 (.node 1 (.leaf 73108072108072107072106074105075105075105074106073112071112072111072110072110074108073111074112072115071116071114073114074115074115075115074115072116071116071116071114073114075115074115074116074117072117071116071116072115074115074116074117072118072118072117071116072116074116074117075119073123071122071122072121073119073120073120075123073124072124071122071122072121073120075123074124072127072127071126072125072125073124074126074127073129071128072128072127072127074127074128074129072130072130071128072128072127074128074129073130072134071134071134072133072133074133074134074135073136072136071134071134074133074134074135075136073137072137072136071134072134074135075136074137072145071144071143071142074143074143075144075144073146071145071144071143074143075144075144075145073147071145071145071144072145075144075145073147073157072157072156072155072154074155074156074157074158072158072157072156072156074156074157074158073160073159073159072158074158074158074159074160072169072169072168072165073165074165074166074167073170072170072169072168073166074166074167074168073171071170072170072169072169074167074168074169072178071178072178072175072177073176074176074177072179072180071178072178072178074176074177074180073181072181072180071178072178074177074180074181072182071182072181072180072179074180074181074182074183072184072183071182072182074182074183074184073185071185072184072183074182074183074184073185072185071185071185072184074183074184073185073185072188071188072185071185072185073185073187074188073193072193073192072191074191074191074192074193)
 (.leaf 72206072205072204072203073203074203074204073206072210072209072208072207073207074207074208074209072216072215072214072213073213074213075215075215072217072216072215072214073214075215075215074216072217072217072216072215072216075215074216073218072219071220072220072217072217073218074218075220072222071221071220072220073218074218075220074220072222071221071221071220072219075220074220075222073227072227072226072223072223074223075226075226072227071227072227072226073224075226075226073227072230072230072229071227072227073227074227074230073233071231073232072231072231073230074230075232073243000000000000000000072240074241074242074243073244072242000000000000072241074242074243073243072247000000000000072245072245073244074246074247073248000000000000000000072245074246074247074248000000000000000000000000072247074247074248000000000000000000000000000000000000000000000000000000000000073341000000000000000000000000000000000000074343073343071341073341000000000000074341074342073347072347072344073344073343075344075346075347000000000000072347072344074345075346075347000000000000000000000000000000000000000000000000000000000000000000000000000000000000000000000000073353000000000000000000000000000000000000073353074354074357072357072354000000072353075355074356074357073358072358072357072354073354074356074357073358072358000000072358072357074357074357073358074359000000000000000000000000072358074359074360000000))
 (.node 1 (.leaf 74360074360000000000000000000000000000000000000000000000000000000000000000000000000000000000000000000000000000000000000000000000000000000000000000000000000000000074371000000000000000000000000000000000000074371074372000000000000000000000000000000074371074372073374072376000000000000000000000000073374074374073376072379072378072377000000073376073377073377074378072379072379072378072377073377073377074378074379074386072387072386071384073383074383074384075386072388072388072387072386073384074384075386074386072389000000072388072387074386075386074386073388074390071391071390000000072389074388074389074390074397071398071397073396072397074395073396074397073402071401071399073399073398074398074401075401074402072403071401071399074400074401075401075401072407071408072405073405073404074404073405074406072407072407071408072405073405073405074406074407074411072411072410073409073409075410073410074413072412072412072411072410072410073410074413075414074417073417072416073414073413075415075415074417074424073425072423072422074422075422074423074426074426073428073425073425074424074426075426075427074427073428073428073425073425075426075427074427072430072431072430073428074427074427074428074431072432071431072431072430073428074428074431073432072432071432071431072431072430074431073432073432073436071435072433071432072432073433075435075436073437072437071435072433073433075435075436074437074440071440072440072439074438074437075438074439074440073441071440072440074439075438074439074440072443071443071441073441074440074440073443073443)
 (.leaf 74445072447071445071443073443073444075445074445072447071447072447071445072444075445074445075447073450072448072447071447072447075447074447074448072450072451072448072447073447074447074448073450073455071454072452072451073451074451073452075454073456071456071454072452073452073452075454075454074464072464072463073462073462074462074463074464072465072465072464072463073463074463074464074465072468072469071466072465072465074465074466074467073471071471071470072469072468074467075470075470072472072472071471071470073468075470075470075470074473071473072472071472073471073471074472075473074477073478072475073475073474075475075475075478074477073478073478072475074477075475075478075478073482072482072481073479073478074478074481074482072487071487072487072486074486074486073487073487073490071489072489071487072487073487074489073490072493072493072492072489072489073490000000074491072494000000072493072492000000000000074491073493072497071498071497071495073494074494074495075497072499071498071498071497073495074495075497073498072501071500071499071498072499073498075499075500072501071501071500071499072499075499075500074502072503071502071501071500072501075500074502074503072503072504071502071501072501074502074503073504073505000000072504071502072503074503073504073505000000071509000000071507000000073506000000074508072510072509071509000000073507000000074508000000074519072518073517072516073516000000074519000000073525072523072522071523073521073522075522073525072524072524072523072522073522075522073525074526073531072529072528072527073527074527075528075529)))
 (.node 2 (.node 1 (.leaf 72530072530072529072528073528075528075529075530072535072535072534071534072534073534074534073536072537072537072536072535072535073536074536074539073541072541073538072537072537074539074540073540073550072548072547072546073546075546074549075549074550072549072548072547073547074549075549075549074551072551072550072549074550075549074550074551074552072552072551072550074551074550074551074552074553072555072552072551074551074551074552074553074554072556072555072552074552074552074553074554072556072557072556072555074553074553074554074555072557071557072557072556074554074554074555074556073559072559071557072557072556074555074556074559072559071560072559071557072557074556074559074560074565071564072564072563072563074563074564074565072566071566072566071564074565074565074566074567074569071569072567072566073566073566074567075568074569071570071569072567073567074567075568074569073572071570071570071569074569075568074569075572072572072571071570071570074569074569075572075572074574072573072572072571072572075572075572074573074574073575072573072572074573075572074573074574073583073583072580072579073579075579075581074583073584073583073583072580073580075581074583074584073590071590072589072588072587073587075587074590072591072589071590072589072588075587074590074591073597072597073594072593073593075593073596075596073614073613072613072612074611074612075612074614073620073620073617073617073616075618075618074618074620073620073620073617074618075618074618075619074623071624073621072620073620074620075621074622072625071624071624073621073621075621074622074623)
 (.leaf 72625071626071624071624074623074622074623074624074625071626071626071624072625074623074624074625073631071631071628072627073627073627074630074631073632072632071631071628073628074630074631074632073636000000000000000000072633074632074635074636072636000000000000000000072634074635074636074637074638072639000000000000072636074637074638074639000000000000000000000000000000074642000000000000000000000000000000000000000000000000000000074643000000000000000000000000000000000000074643074646000000000000000000000000000000074643074646000000000000000000000000000000000000074646000000000000074674072673072672072671000000000000074672074673000000072679072678073676074677074677000000000000000000000000072679072678000000000000000000000000000000000000000000072679000000000000000000000000000000000000000000000000000000000000000000000000000000000000000000000000000000000000000000000000000000000000000000000000000000000000000000000000000000000000000000000000000000000000000000000000000000000000000000000000000000000000000000000000000000000000000000000000000000000000000000000000075104073103000000000000000000000000000000000000075105074105073103000000000000000000000000000000073111072110072110073109074107075107075108075111074112073112072110072110074108075108075111075112073113073113073112072110073111075111075112075113074115074115073114073113073113075113076114075115075119072118074117072116074116074116074117076119073120073119072118074117074117074117076119076119073120072121073119072118075119076119076119076121075123073123072121073119073120076119076121075123))
 (.node 1 (.leaf 74124073124073123072121073120076121075123076122073124072125073124073123075123075123076122074124074127072127073126072125073124074124074124075127075132073132073131072130073130074129075131075132074133072133073132073131073130075131075132075133074134074133072133073132075132075132075133075134073138072138073137073136075136075136074137074138075145073146072145074143075144075144075145074146073147073147073146072145075144075145074146075147074163073163073162073161075160076160076161075163073163072164073163073162074160076161075163074164073173073174073173073172074170075170074171074173074176073176073175073174073173074173075175074175074180072179072178072178074176075178074179075180073187073187072185073185073185075185075186075187074188072188073187072185073185075186075187074188073188073189072188073187073187075187074188074188074192073192074191073190073190076190074189075192000000000000000000000000000000075196000000000000000000000000000000000000000000000000000000000000000000000000000000000000000000000000000000000000073206072206073204073203074203075203075204075205075207073206072206073204074204075204075205075206073212073211073210072210074209075209075210075211075215073214073213073212074212075212075213075214075215072216073214073213074213075213075214075215073218072217072217072216075215075215075216076217075220072219073218072217073218076217076219076221075222072222072222072219075220076221076221076222073223073222072222072222074220076221076222076222075226073224072223073222073223076222076224076225075226073227073224072223074223076224076225076227)
 (.leaf 73227072227073227073224075226076225076227076227074230072230073229072227073227076227074227076229073230072231072230073229074227074227076229074230073233073234073233073232074230074231076232075234074235073235073234073233075232076232075234075235075236073236073235073234073233075234075235076236073237073238073237073236075236076236075237075238073240000000073239073238073237075238075239076239074241072240000000073239074237075239076239076239074242072241072240000000073240076239076239076241074246072245072245073244073243075244076244075246074247072247072245072245073244076244075246075247000000000000000000000000000000000000000000000000000000000000000000000000000000000000000000000000000000000000000000000000000000000000000000075340075346074345073343074343074342076344075345000000000000000000073347074345075346000000000000000000000000000000000000073347075347000000000000000000000000000000000000000000000000000000000000000000073353000000000000000000000000000000000000075351074354000000000000000000000000000000075351075354075355072353000000000000073353075351075354076354074357074357073354072353075355076354076355075355074360074360072358073358073358075356075359075360000000000000000000000000000000074360074360075363000000000000000000000000000000074360075363000000000000000000000000000000000000075363000000000000000000000000000000000000000000000000075368075369073374000000000000000000074371074371075372074374073376072376073374000000073374074374075374074376073377073377073376072376073376074376074378075377073382073381073380072379074379074380074380075381)))))
 (.node 8 (.node 4 (.node 2 (.node 1 (.leaf 73382073382073381073380073381074380075381074383075386074386073384073383074383074384075384075385073388072389072388074386075386075385075386075387073395073394073393073392074392074393075393075394073396073396072397073394073395075394075395075396073405073405073404073403074403075403074404075405075410073408072407072407074406075406075407075408075410073409073408072407074407075407075408075411073410072410073409073408075410075408075411075412075414072412074411072410073410075412075413075414075415073416073413072412075414075414075415075416074417074417073416073413075415075415075416075417075417073418074417073416075415075416075417075418075426073425074424073423074423076423075424076426074431072430073428074427074427075427075428076429073432072432072430073428074428075428076429075430073433072432072432072432073432075430074431075434075435073433072432072432073432074431075434075435075436073436073433072432073433075434075435075436074437073437073436073433075435075435075436074436073443073443074440074440074439074439076441074442073444073443072443073443073443074442074442076444075445072444073443072443073443074442076444075444075447072447074445072444075445075444076446075446073450072450073450073447074447074447075448076450073452073452073451073450074450075450076453076453075454073455073452073451074451076453076453075453075454073456073455073452073452076453075453076454075456073457073456073455075454075453076454075455073458073458073457074456074456075456076457075458073461073461073460073459074459075459075460075461075470073468072468073466074466075466075467076470)
 (.leaf 75470073471073468072468074467075467076470076470075470072472073471073468075470076470076470076470073471073471072472073471075470076470076470075473075475073474074473073472074472076473076474076475075475074477073474074473075473076474076475076476075478074477074477073474075475076475076476076477074481073481073478074477075478075477076479075481074482073482073481073478074478076479075481075482074485073485073484073483073483075483074484075485073490073490073489072487073487074487075489074489000000000000072489073490073490074489074491074491073493072494072493000000000000074491075493074493075497072497073495073494074494075494076496076496073498072499072497073495074495076496076496076499075499072499072499072497075497076496076499076499075500072501072499072499073498076499076499076499074502072501072501072499075499076499076499076500074503072503072501072501075500076499076500074503074506073506073505072503073504075504075505075506074507000000073506073505073505075505075506074506000000072510000000073507000000074508074508075511000000073510072510000000074508074508075511000000073512073511073510072510000000075511000000000000000000073515073514073513000000075513000000075515000000073516073515073514074514000000075515075516074519074519073516073515000000075515075516074519000000074519074519073516000000075516074519074519073522073521073520073519074519074520075522000000075522073522073521073520074520075522000000075522073525073525073522073521073522000000075522074525074526072524073525073522075522075522074525075526075528073528073527073526073527074527075527075528))
 (.node 1 (.leaf 75529073531073528073527074527075527075528075529075530072530073531073528075528075528075529075530073536072535073534072534073534074533075534075535074539072537073536072535073536075535075538074538073543072542073542073541073540074540075542074542073545072545073544073543074543074544075544075545075546073546072545073544074544075544075545075548074549073547073546072545073545075545075548076548075549073550073547073546075546075548076548075548074559073559072557072556074555075555075556074559074560072559073559072557074556075556074559074559075568074569073567073566073566075568074567075568075572073572074569074569075568075568076570076571075572072572073572074569074569076570076571076571075572074573072572073572075572076571076571075572075579073579073578074577075577075577075578075579075581073580073579073578074578075578075579075580074583073583073580073579075579075579075580075581074584073584073583073580075581075580075581075582073587072587073586073585073585076583076584074586075587072588072587072587073587074586076587076587074590073590072588072587073587076587076587074590074591072591073590072588075587076587074590074590075593073593073592073591075592076593075594075595073596073596073593073592075593075594075595075596075596073597073596073593075593075595075596074597073598073598073597073596073596075596074597075598074604073604073603073602074600074601075601076602074605072605073604073603073602075601076602075603073609073609073608073607074605075607075608075609073610074611073610073609073609075609075610075611074615074615073614073611075612076613076613075615)
 (.leaf 75618073616073615074615075616075616076617076617075619074620073620074618075618076618076618075619075621073621073620074620075619075619075620075621073626073626074625072625074624076624075625075626073627073627073626074625074625075625075626075627074630073628073627073626073626075626075627075630074631073631073628073627073627075627075630075631074635072634072633073633075633075633074634076633000000000000000000073641074639074640075640000000074646000000000000000000000000000000075643075646000000000000000000000000074643075643075646000000074677074677073674074674074673075673075676000000000000000000074677073674074674075676000000000000000000000000000000000000000000000000000000000000000000000000000000000000000000000000000000000000000000000000000000000000000000000000000000000000000000000000000000000000000000000000000000000000000000000000000000000000000000000000000000000000000000000000000000000000000000000000000000000000000000000000000000000000000000000000000000000000000000000000000000000000000000000000000000000000000000000000000000000000000000000000000000000000000000000000000000000000000000000000000000000000000000000000000000000000000000000000000000000000000000075104000000000000000000000000000000000000075111073111074108074107075107077108076108077110075112074112073111074108075108076108077110076112076115075115074115074114076114076114076115077115074116074116074115075115076115077115076115076118074117074117074116074115075115076115076118076119076119075119074117074116074116076118076119077119076121073120073120075119076119077119076119076120)))
 (.node 2 (.node 1 (.leaf 75123075123073120073120076119076119076120077123076122074124075123073120076121076120077123076122074124074126073124074124076122076122075123076124075127074127074126073124074124075123076124077125075128074128074127074126074124076124077125075127075132075132073130073130074129076130075131075131074137074137075136074135076134077134000000077136074138074139073138074137074137077136076138076139075140073139074139073138074138076138076139075139076142074143074142000000074140075140076142076143075145075144075144074143076142076143076144075145074150074150073149074148074147000000076149077149074150074151074150073149074149076149077149076151075152073152074151074150074150077149076151076152074152074153073152074151074150076151076152075152076154074155074154074153074152075152077154076155075156074156074155074154076154077154076155076156075157074157074156074155076154076155076156077156076160075160074160074159074158076159076160076161075163074163074160075160076160076161077162077162074164073163074163074160076161077162077162075164074173073173073172074170075170075171076171076172075175073174073173073172074171076171076172076173074175074176073174073173074173076172076173076176075178074176073176074176074175076176077176076178074179074177074176073176074176077176076178076179075181074181074180074177074179076179076180076181075184074184074183074182074182076182075183077184076190073190073188074188074188076188077189077189074189074191073190073188074188077189077189075191075192074192074191073190076190077189075191076192076217073218074216075215075215076215077217076217)
 (.leaf 76219074218073218074216075216077217076217077220076221075220074218073218076217076217077220076221076222075222074220075220076221076221077221076223076224074223073223075222076222076223077223077225076225075226074223073223076222077223077225077226076227075226075226074223076224077225077226077227074227074227073227075226076227077227077227077228076229074230074227073227076227077227077228077229074230073230074230074227074227077228077229075231074231074230073230074230076229077229075231076232075235074235073233075232076232077232076234077235076241074242074241073240076239077240077240076242075244073243074243074242076241076242077242077243076244073244073243074243075241077242077243077244075247074247074246073244076244077244076244000000000000000000000000000000000000000000000000000000075343074341000000000000000000000000000000000000076344074342074341000000075340000000000000000000000000000000000000000000000000000000000000000000000000000000000000000000000000000000000000000000075354074354073353000000000000000000077352076354076354075355074354073353075351077352076354000000075359074359073358074357075355076357076358077359075360074360074359073358075356076358077359076360075363000000000000000000074360076361000000000000000000000000000000000000074360000000000000000000074374073374074372074371074371075371076372076373074378073377073376074374075374076374075375076376074380073381074379074378074379075379076379076382074383073382073382073381074380076382076383075383076390074390074389074388074389075389076389076390076391074391074390074389075389076389076390076391))
 (.node 1 (.leaf 74393074392074391074390076390076390076391076392074399074398074397073396075396075397075397075400074404074404074403074402074403076402076403076404075411075410075410074407075407075408076410076411075421075420074420074419076419076419077420077421076423074423075422075422076421077422077422076423076426075426074426074423076423076423077424076425076429074431074428074427075427077427077429076429074431073432073432074431076429076429076430076431075434073433073432073432075430076430076431076432075435075435073433073432074431076431076432075434074439074439075438074437076438077438076438077440076441074440074439075438075438076438077440076440074442073443074440074439074439077440076440077442074442073443073443074440076441076440077442077443076444073444073443073443074442077442077443077444076450073450074448074447074447077449077449076449076453074451074450073450076450076449076452077451076453073452074451074450075450076452077451076452076457074457074456075456075455076455076456075458074464074462073461074460075460076460077462076462074465074464074463074462074464076462077464077465074465074465074464074463075463077464077465077465076470075470074467074466075466076466076467076468076470075470075470074467075467076467076468076469076473074472073471075470076470076470075471076472076475075475075473074472076473076472076473076474076477075478075475075475076475076474076477077477075481074481074478075478075477076477076478077479075482074482074481074478076479076478077479077482000000074486074485074484074484075483077484077485075489074489073487073487000000075486076488076489)
 (.leaf 74489073490074489073487074487076488076489075489074491000000073490073490074489075489075489076492075493074491000000073490074491075489076492075492076496074495074494074493074494077494076494076495076496075497074495074494075494076494076495076496076499075499073498075497076496076496076497076498074503074503074502075500076499076499076500076503075504073504074503074502076500076500076503076504075505073505073504074503074503076503076504076505074508000000073506074507074506076507076508075509074508074508000000073506074508076508075509075509000000000000000000074508074508075509076511076512074513074512073512000000000000076512000000000000074519074519000000000000075515000000076516076517074519000000074519000000075516076516076517075519075522074520074519000000074519075519000000076520000000073522074520074519074520000000076520076523074525073525075522073522000000076523075524075525074533073534074532074531075531075532076534075534075538074536073536074534075534076534075537075537075542074542073540074540074539075539076541077542074542073543074542073540074540076541077542076543074544074543074542073543074542076543076544075544076548074549075546073545075545076545076546076547074550074550075549075549075548076548076549076550074551074551074550075549075549076549076550077552074559074559074556074555075555077555076556077557074559074560074559074556075556076556077557077559074562074563074562073560075559075560076562076563074563074564074563074562074561076562076563076564075565074565074564074563074562076563076564076565075566074566074565074564074563076564076565076566))))
 (.node 4 (.node 2 (.node 1 (.leaf 76570074569075568074567074567076569075568076569076571075572074569075568075568075568076569076570076571075572075572074569076570076569076570076571076576074576074575074574075574075575076575076576076583073585074584074583075581077581076582076583076584074586073585074584075582076582076583076586074586073587074586073585076583076583076586076587076587073587073587074586076584076586076587076588074590074590075587073587076587076588076589076590074590074591074590075587076587076589076590076591075592074592074591074590074590076590076591076592076593075592074592074591074590076591076592076593076602074604073602074600074601075601076601075604075607074605073605074605075603076603076606076607075608074608074605073605074606076606076607075607075615074615074614075612076613076613077613077613075616075616074615074614076613077613077613076616076618075618075618074617076617077616077616076617076624074623074622075621075621076621076624077625076624074624074623074622075622076624077625077625075630074630073627073626075626076626076627076628075631074631074630073627075627076627076628076631074636074636074635074632074634077633077634077635075637074637074636074635076633077634077635076637075638074638074637074636074636077635076637076638000000000000074642074639074640075640000000000000000000000000000000074642075640000000000000000000075646074646074643000000000000000000076643076646000000000000074646074643075643076643076646000000075676074674074673074672075672000000076673000000000000074677074674074673075673076673000000000000000000000000000000000000000000000000000000000000)
 (.leaf 77105077108075107075106000000000000077105078106078108077110075111075108075107077108078108078110078110076112075112075111075108076108078110078110076111076118074116075115076115077115078116077115078117076119074117074116075115076115077115078117077117075123074124076122075123077123078121078124078124077125075127074124074124075123078124076124077125075127075128075127074124076124076124077125078128076129075129075128075127077125077125078128077129076130074129075129075128075127078128077129077130076133075133075132075131075131077131078132077133076134075134075133075132075131078132077133077134077136074137075136076134077134077135078136078136076138074138074137075136000000078136078136078137076139074138074138074137077136078136078137078138076142075142074140075140075139078139078140078142076143076142075142074140075140078140078142078143076149074149074147075147075146076146078147077149077149074150074149074147000000078147077149078150076152075152074150074150077149078150078151078152076155076154076154074152075152078153077154077155076159074158075158075157077156077157078157077159))
 (.node 1 (.leaf 76160075160074158075158075157078157077159077160075164074164075163076161077162076161076163077162075165074164074164074164075164077162077165076165075169075169075168075167076167077167076168077169075171075170075169075168075169076168077169077170076176074175075175074173076172078173078173077176077176074176074175075175076173078173077176077177076179074179075178074176077176077177078177076179076186075186075185075184077184077184077185077186076187075187075186075185075185077185077186076187075191074189076190074188077189076188077190077191075193075193075192074189075191077191077192076193075197000000000000075196075196077196077197077198000000000000000000000000075197077197077198000000000000000000000000000000075197077198000000000000000000000000000000000000000000000000000000077200000000000000000000000000000000000000077200000000077207075207075206075205076205077205077206077207077210075209075208075207077207077207077208077209077211075210075209075208076208077208077209077210077212075211075210075209077210077209077210077211077213075212075211075210077211077210077211078212077214075213075212075211077212077211078212077213077215075214075213075212077213078212077213077214077217075216075215075214077215077214078217078217077220076219076217075216077217078217078218077220077221076221076221076219077220077220078221077222077227076227076227076225077226078224078226078227077229076229074227076227077227078227078227077230076232074231074230076229077229077230078230078231077232076232074231074230075231078230078231077233077235075235075234076232077232077233078233077235)
 (.leaf 77236075237076236075235077235077235078235078236077238075239075238075237077236078236078236078238077240076239075239075238077238078236078238077240076242076241076239076239077240077240078240077242077244076244075244075241077242000000000000000000000000075247075246076244077244000000000000000000000000075248075247075246076244000000000000000000000000000000075248075247000000000000000000000000000000000000000000075248000000000000000000000000000000000000000000000000000000000000000000000000000000000000000000000000000000000000000000000000000000075340000000000000000000000000000000000000000000075343075340000000000000000000000000000000000000076344075343075340000000000000000000000000000000075345076344075343000000000000000000000000000000000000000000000000000000000000000000000000000000000000000000000000000000000000000000000000077352075351000000000000000000000000000000000000076354075354075351000000000000000000000000000000000000076354075354075351077352000000000000077353076358075356075355076355000000076354078356078357076361074360075360075359077359077359076360077361000000000000075363074360000000000000000000000000075375074376075374074374076373077373077374077375075378075377074378074376075375077375076378077379076382074380074380074379075379076378077379077382076383075381074380074380076379077379077382077383075395075394075393074393076392077392077393077394075400074399075399075396075397076397077397076400076401075399074399075399075397077397076400076400075406075405074404075403076403077403076404077405075407075406075405074404076404076404077405076407)))
 (.node 2 (.node 1 (.leaf 76410075408075407075406075407076407076409076409075417075417075416075415075415076414076416077417076419076419075418075417075417077417077418077419077421076421075421076419077420077420078420077420077422076423076421076421077421077420078421077422077424075424076423076423077422077422077423077424077427075427075426076426076425077425077426077427077429075428075427075426076426077426077427077428075435075436075435075434076432076433077433078435075436074436075436075435075434077433078435077437076438076438074436075436075435078435077437077438077438076438076438074436075436077437077438078439077440074439075438076438077438078439078439078440077443074442074442076441076440077440077443078443077444076444074442074442077442077443078443077443077449074447075446076446076445077447078448078448077449075448074447075446076446078448078448078449077451076453075450076450076449077449078451077451077462075461075460075459076459077461077462078462077464075463074464075461077462078462077462077463077465074465075463074464076462077462077463077464077465074465074465075463077464077463077464077465077482075482075481076479076478077478077479077482076483075483075482075481077479077479077482076483075483074484075483075482077482077482076483000000077485000000075485074484075483000000077483077484075486000000000000075485077484077483077484077485076488074487000000000000077485077484077485077488076489075489074487000000075486077485077488076489076492074491074491074489075489078489077489077490075492075493074491074491075489077489077490076492077494074494074493075493075492076492077492077493)
 (.leaf 76503074503076500076499076499077499077500077501076504075504074503076500076500077500077501077502076508074508074506075506075505076505077507076507076512000000075511074508075509076509077511077512075514075513074513000000000000077513000000000000075519074519074519075516076516000000077517077518000000074520074519074519076517077517077518000000076523000000075522074520000000000000077520076522075531075530075529075528075529076528076529076531076534074533075531075530075531076531076531076533075537075538075535075534076534076535077535077536076539074538075538075535075537077535077536077539075539074539074538075538075537077536077539077540077542075542074540074539075539077540077541077542076544074543074542075542077542077542076543077542077552074551074550075549076549076550076550077551077553075552074551074550076550076550077551077552075553075553075552074551077552077551077552077553077555075555075554075553075553077553077554077555077557074559075556075555077555077555077556077557077559074559074559075556076556077556077557077558075560075559074559074559077557077557077558078560076562074561075559074559077559077558078560078560076563074562074561075559075560078560078560077563076569074567075568074567075567077565077568077569076574075572076571076571076570078572077573077574076575075573075572076571076571077573077574076574075579075578075577076576076576078577078577077578077581075581075580075579076579077579077580077581075600074600074598075598075597077598077599076600075601075601074600074598075599077599076600077599076606074606075603076602075604076603077603078606))
 (.node 1 (.leaf 76607075607074606075603076603077603078606078607075609075610075609075608075607077608078608077610076612076612075611075610075609077610077611078611076616075616075615076613077613078614078614078615077616076617075616075615077613078614078615078615076624075622075621075620076620077620078623077624077625076624075622075621076621078623077624078624077625075625076624076624077625078624078624077625076631075631075630075627076627078627077630076631076632074632075631075630076628077630076631076631077635074636076633074634077633077634078635077634076637075637074636076633077634078635077634077637076638075638075637074636077635077634077637077638000000000000075640074640075640076640000000000000000000000000000000075640000000000000000000000000076646075646075643000000000000000000000000076645000000075676075673075672000000000000000000000000000000000000075676075673076673000000000000000000000000000000000000075676000000000000000000000000000000000000000000000000000000000000000000000000000000000000000000000000000000000000000000000000000000000000000000000000000000000000000000000000000000000000000000000000000000000000000000000000078106076106000000000000000000000000000000000000078108077108076106000000077105000000000000000000078110077110076108077108078108000000000000000000076112075113076112077110078110000000079110079113076113076114075113076112076111079110079113078114077115076115076114075113076112079113078114078115078116077115076115076114076113078114078115078116078117076118076115077115078116078116079116079117078119077119076119076118078117079117078117078118)
 (.leaf 78121077123076120076119078120078119078120078121078124076122077123076120077120078120078121079122076124076124075123076122078124079122079124079126077129076129075127077125077125077126077126079128077130076130076129075127078128077126079128077130077134076134076133075131078132078132078133078134078138076139076138077136078136078137078138078139078139075139076139076138078137078138078139078140078140075140075139076139078138078139078140078141078142076142075140075139078139078140078141078142078143076143076142075140078140078141078142078143077144076144076143076142078142078142078143078144076145075145076144076143078143078143078144078145076146075146000000075145076145078145078146077146077149076149000000075146076146077146078148078149078150077149076149000000078147078148078149078150078152076152076151077149078150078150078151078152078153075152076152076151078151078151078152078153077154077154075152076152078152078152078153078154077155076155077154075152078153078153078154078155077160076160076159075157078157079157079157079160076163077162077162076161076160077160079162077162077165075164075164077162076163077162078162078163076165075165075164075164077162078162078163078166078172076171075171075169077169077169079170078173078173076172076171075171077170079170078173079173078173076173076172076171078172078173079173078173077176076176076173076172078173079173078173079175077177077176076176076173078173078173079175079175077180076180076179076178078177078178077179077179077185075185077184075183076183078183078184078185077190077189077189076188076188078188078189078190))))))
 (.node 16 (.node 8 (.node 4 (.node 2 (.node 1 (.leaf 77196075196075195076194076193077193077195077196000000000000000000000000000000077198078200077200000000000000000000000000000000077200077200077202078217077217076215077215077214079215079216079217077220077220076217077217078217079217079218079219078221076221077220076217078218079218079219078221078224077226077225077223077222079222079224079225077233077232076232075231078230079230079231079232078235076236077235076234078233079233079234079235078238077238077238077236078236079236079237079238078240077240077240077238078238079238079238079240000000077242076242077240078240079240000000000000000000000000076244077244000000000000000000000000000000000000000000076244000000000000000000000000000000000000000000000000000000000000000000000000000000000000000000000000000000000000000000000000000000000000000000000000000000000000000000000000076354000000000000076354000000000000000000000000078356076357000000000000077353000000000000000000078357076358076357000000076354000000000000000000077359077359076358076357078356000000000000000000076360076360077359076358078357000000000000000000000000000000076361076360076360000000000000000000000000000000000000000000000000000000000000000000000000000000000000000000000000000000000000078366000000000000000000000000000000000000078366078367000000000000000000000000000000078366078367078368077372076370076369076368077368077368078371077371076378076376075375076374077374078374079376079376077379075378076376075375077375079376079376077378077383076383076382076379077379077380077382078383076388075389075388076386077386078386077387078388)
 (.leaf 76389076389075389075388076387077387078388077390076392076391076390076389076389077390079391077393076396076395075395076393077393077394077394078395076397075397076395075395077394077394078395077397076400075400075397075397076397077397077397077399076402076402076401075400076400077399079401079402077403075402076402076401076400079401079402078403076403076402075402076402076402079402078403077403076404076404076403076402076403077403078403078406076409076410075408075407076407078408077407077409076412075412076411076410076409077409077411078412076416075415075415075414076413078412077413078414077417075417075415075415076414077413078414077417077418076418075417075415076416078414077417078418076433076432076431076430077430079430078431079433078435075435075434076432076433079433079433079435077437075436075435075434077433079433079435078437077438076438075436075435078435079435078437078438078440077440076438077438078439078439079440078439077443077442076440077440078440078439079441079441077447076445077444077444077443078443079444078445078448076446076445077444078445079444078445078446078449077449077449076446078448078446078449079448076452076452077451076452078451079451078451079452078454076454076453076452076452079452078453079455078455076455076454076453077453078453079455079456078456076456076455076454078454079455079456077457076458076458075458076456078456077457079458079459077461076459076458075458077457079458079459079460077462076460076459076458076458079459079460079461076466076466077465077465077464078464077465078466078468076468076467076466076466078466077467078468))
 (.node 1 (.leaf 76471075471076470076469077469078469077470078471077482077482077479076478077478078478078481078482076483076483077482077479077479078481078482077483077488076488075486077485077484079485079486079487076489076489076488075486077485079486079487079488076492075492076492075489077489078489078490079491077499076497076496076495077495078495079497079498076498076498076497076496077496079497079498078498076505075505076505076504077502078502077503078504077507076507075505076505076504077503078504078505076507076508076507075505076505078504078505077508077511076511075509075509076509077508077510078509000000000000075519076517077517078517078518078519076522076523076520000000000000078519000000077522076525076524075525075524077522077523079523078524076525076525076524075525077523079523078524078525076527076526076525076524076525078524078525078526076529075530075529076527077527077528077528078531076531075531075530075529076528077528078531078532076531075532075531075530076529078531078532077532076534075534076534075532076531077532078532078533076535076534075534076534076533078532078533077535077539076539075537075537077535078535077536078537077540075539076539075537077536077536078537078540076544075544076544076543076543077542079544079545076545076544075544076544077542079544079545079545077547076545076544075544076544079545079545079545077548076546076545076544076545079545079545079546076550076549076548076547076548078547078548077551076550076550076549076548076548078548077551077551078560076562075560077559077558077559079560078560077563076563076562075560078560079560078560078563)
 (.leaf 78563076564076563076562078560078560078563079563076565076566076565076564078563079563078565079566077568076568075567076566076565079566078567079567077569076569076568075567077565078567079567079568078572076570076569075568076569078570078571078572077574076574076571076570078572078572077573077573078577076576076575075575077574078574078575078576078577076577076576076575077575078575078576078577077584076582077581076580077580078580078583077584077585076583076582077581077581078583077584077584077589076589076588076587076587078587079587078589077590076590076589076588078587079587078589078590076595076594077593075594077592079593078593079595076596076597076594077593076594078593079595078597077598075597076597076594076595079595078597078598077599075599075597076597076596078597078598077599076603076601075601075601077599079599078600079601076603075604076601075601077600078600079601078602078606076606076603075604076603078602078603078606078607076607076606076603077603078603078606078607077608075607076607076606078606078606078607079608078608076609075607076607078607078607079608079609077611076611075609076609078608079609079610079610078614077613076613076612078611079610078611078614078615076616077613077613078614078614079614079615078615077616076616077613078614079614079615078615078618076618076617077616077616078616078617078618078623076621076620076619077619078619079621079621077624076624076621076620077620079621079621078622078624077625076624076621078623079621078622078623076626076626077625077625078624078624078625078628078627076627076626077625077625078625078628077629)))
 (.node 2 (.node 1 (.leaf 77630076628076627076626076626078628077629077629077633075632076632076631076631078631077632077632076640075640076640076639076639078639079639078639000000000000000000075640076640078639000000000000076645076646076643000000000000000000000000077645000000000000000000076646076645077645078647000000000000076673000000000000000000000000000000000000000000000000076673000000000000000000000000000000000000000000000000076673000000000000000000000000000000000000000000000000000000000000000000000000000000000000000000000000000000000000000000000000000000078108078106077105000000078105079106000000000000078110078110078108000000000000000000000000079113076112076111078110000000000000080110080113078114076113076112076111079110080110080113079114078115077115076113076112079113080113079114080115079124078124078124078121078121078122080123080123077126077125076124078124079124080123080125080126077126078128077125076124079126080125080126078127078131077131077130077129079128080128079128080130078132078132077131077130077130079128080130078132078137078136078136077135079135080135079136080136079160077160077159078157079157080158080158080159077160076160077160077159079157080158080159080159079162076161076160077160079160080159080159079162077162076163076161076160077160080159079162079163078166076165077165077162078162078163078163079166077166076166076165077165078163078163079166078166077168076168077167077166078166078167079167079168077169077169076168077167078167079167079168079169079170077170077169076168077168079168079169079170078173078172077170077169077169079169079170079171)
 (.leaf 79175077176078173078173079173079172079173079174079175077177077176078173078173079173079174079175078178078177077177077176079175079174079175079176078181077181077180076179077179079177078180078180078193076193077192077191077191079191078190079191077193076193076193077192077191078190079191079194077196077196076195076193077193079194079195078196078197077197077196076195077195079195078196078197077202077202000000077200077200078201078201078203077212077211077210077209078209080209080211078212079214077213078212077211077212078212080213080214079215077214077213078212077213080213080214080215079216078217077214077213079214080214080215080216079217078217078217077214079215080215080216080217078221078221077220078218079218080218080219080219079221077222078221077220079219080219080219080222079224078224077222078222079222080223080223080223079226078226078224078224079224080223080225000000079229077230078227078227079227000000000000000000079230078230077230078227079228000000000000000000079233078233077233078231079231000000000000000000079235078235077235078233079233000000000000000000079238078238078236078236079236000000000000000000079240078240077240078238079238000000000000000000000000000000077242078240079240000000000000000000000000000000000000077242000000000000000000000000000000000000000000000000000000000000079244000000000000000000000000000000000000079244000000000000000000000000000000000000000000000000000000000000000000000000000000000000000000000000000000000000079351000000000000000000000000000000000000000000077351000000000000000000000000000000000000000000))
 (.node 1 (.leaf 79351000000000000000000000000077353000000000000077351000000000000000000000000076354077353000000000000000000000000000000000000078356076354077353000000000000000000000000000000076360077359078357000000000000000000000000000000077361076360077359000000000000000000000000000000000000077361076360000000000000000000000000000000000000000000077361000000000000000000000000000000000000000000000000000000000000000000079363078366000000000000000000000000000000079363079366078367000000000000000000000000079363079366078366078371077369077368077367077368079369078370078370077373076372076371077372077371078371080372080373077373077373076372076371077372080372080373079375079376077375077374077373077373079375078374079375079376076378077375077374078374078374079375080376077378077379076378077375079376079375080376079377077379076378077379076378079376080376079377080379077380077379076378077379077378079377080379079379077382077382077379076378077379080379079379080381078383077383077382077379077380079379080381080381077383076383077383077382077382080381080381078383077385076384077383076383077383078383079385079386077385076385076384077383077384079385079386079387077387076387077386076385077385079387079388078388077390076389076388076387077387078388079388079389079391076390076389076388078388079388079389079390077393076392076390076389077390079389079390079391077393077392076392076390079391079390079391079394077394077393077392076392077393079391079394078395077394077394077393077392077393079394078395079396077397076397076396077394077394079396078395079396)
 (.leaf 77397077397076397076396078395078395079396079399077399076400077397076397077397079396079399079400079401076400076400077397077397079399079400079401079402076402076400076400077399079400079401079402078403077403076402076400079401079401079402078403077403076403077403076402079402079402078403078403077406077405076404077403078403078404079404079405077407076409076407077405077406079405079408078408077411076410076409076409077407078408079410078410077412076413076412076410077411078410078410079413078418077418077417076416078414078415079417079418078419077419077418077417077417079417079418078419079425077423077422078421078421080422080423080425079425077424077423077422078422080423080425079426079426077425077424077423079425080425079426080425079428077427077426077425079426080425080426080427079428077428077427077426078426080426080427080429079430077430078429077428079428080429079429080430079433076433077431077430079430080430080432080433079433077433076433077431078431080432080433079433079435078435077433076433079433080433079433080435078438077438077437078435079435080435080435079438079441077443077440078440078439080441080441079441079443078443077443077440079441080441079441079444079444078445077443078443079443079444080444080444078449078448078448077447078445080446079446079447079451078451077449078449079448080449079449080450079452076452077451078451079451080450079451079452079458077457078456078455079456079457080458080459079459076458077457078456077457080458080459080459079460077461076458077457079458080459080459080460079461077462077461076458079459080459080460080461))))
 (.node 4 (.node 2 (.node 1 (.leaf 79462078462077462077461079460080460080461080462077465077465077464077463078463080464079464080465077467077467076466077465077465080465079466080467079474077474077473077472078472078473078473079474078478077476077475077474079474079474079477079478077477077477077476077475078475079477079478078478078481077479077478077477077477078478079480080480078482077482077479077478078478079480080480079480079485077483000000076483077483078482079484080484079485077484077483000000077483079484080484080485079486077485077484077483079485080484080485080485079487077488077485077484079485080485080485079488079488076489077488077485079486080485079488080487079491076492077490077489078489080489079490079491077493077492076492077490078490079490079491079492077494077493077492076492079491079491079492079495077495077494077493077492077493079492079495078495079497077496077495077494077495078495079497000000079498077499077496077495078495079497000000079497077503076504077502077501078501078502079502079503077508076507077507076505078504080504079505079506077508076509076507077507078505079505079506078508078512077512077511076509077510078509078509079510077513077513077512077511078509078509079510079513077516077515076515000000077514078514000000000000000000077520000000077518078518078519079519079520077522076522077520000000078519079519079520079521077523077522076522077520000000079520079521079522079523077523077522076522077522079521079522079523077528077527076527076525078525079525079526080528077528076528077527076527078526079526080528079530078531076529076528077527077528080528079530079531)
 (.leaf 78532076531076529076528077528079530079531079532077535076535076534076533078532078532079533079534078540077540077539077536077536078536079537080540077541077541077540077539078537079537080540079541077542076543077542077541077541079541079542000000079544077542076543077542077541079542000000079544079545076544077542076543077542000000079544079545079545076545076544077542079544079544079545000000079545077547076545076544079545079545000000079545079546077548077547076545079545000000079545079546077551076550076550076548078548079548078549079550077552077551076550076550077551078549079550079551077553077552077551076550077551079550079551079554077553077553077552077551077552079551079554079555078558077556077555077554078554078555079557080557077558077557077556077555079556079557080557079557079560078560077558077557077558079557079560080561078563077563078560078560079560080561078562079563079566076565077565078563079563079564080565080565079567077568077565076565079566080565079567079568078570076569077569077568079567079568078569078570079578077578078577078577078576079576079577079578077586076585077585077584077584079582080583079586078587076587076585077585077584080583079586079587079587078587076587076585077586079586079587078588079593077592077591076591077591000000078591079592079595076595076594077592079593079592079595079596078597076596076595076594078593079595079596079597078598077598076596076595079595079596079597079598079599077599076600077599077599078598079598079599079601076603077600077599079599079599079600079601078606078606077603076603078602079602079605079606))
 (.node 1 (.leaf 78607078607078606077603078603079605079606080607079610077611077610078608079609080609080610080610079610078611077611077610079610080610080610079610078614078614078611078611079610079610080611079614079614078614078614078611078611080611079614079615079621077620077619078618078618079618080619079620079621078623077620077619078619080619079620080621078628076626077625078624078624079624079625080626078631076631077630078627077629080627080629079629077632076631076631077630077629080629079629079630078634077634077633076631077632079630079633079634078635078635077634077633077632079633079634078634078639076639077638077637077636079635079636079639000000000000076640077640079639080639079639000000000000000000000000076640078639079639000000000000077645076645000000000000000000000000000000080645078647000000076645000000000000000000080645079647000000000000000000076645077645080645079647000000000000000000000000000000000000000000000000000000000000000000000000000000000000000000000000000000000000000000000000000000000000000000000000000000000000000000000000000000000000000000000000000000000000000000000000000000000000000000000000000000078105000000000000000000000000000000000000000000000000000000000000000000078105000000000000079108000000000000000000000000000000079108000000000000080113079113079110000000000000000000000000000000079114078114079113079110080110000000000000000000080117079116078116078115080115081114081116080117080120078120078119078118079118081119081120081121078122078121078120078119079119081120081121081122080123079124079122078121078122081122081124081124)
 (.leaf 80126077126079126079124080123081124081124081125080128079128077126077126080126081125080128081129080130078131077130079128080128081129080128081129078132078132078131077130079128080128081129080132079133078133078132078131080130081129080132080133079134078134078133078132078132080132080133080134078139078139078138078137080136080137080138079138079141078141078140078139078139079138079140079141079147077146078146078145078144080145080146079147080153078154078153078152079150080152081152080154079155078155078154078153079151081152080154080155079156078156078155078154080153080154080155081155080159079160079157079157080158081158080159080160080159077160079160079157080158080159080160080161079163077162079162077160080159080161080162080163079166078166078163078162078163080164080165079166078166077166078166078163078163080165079166080165078181078182078181077179078180079179080181080182080182078183078182078181078180080181080182080183080183078184078183078182078181080182080183081183080183078185078184078183080182080183081183080183079186078186078185078184080183081183080183080184078187077187078186078185080183080183080184079187079194077193078193077191078190079191080193079193078199078200077198077198078198079197079197079199078201077200077200078200078199079199080201079202078201077202077200077200078200080201079202079202078204078203077202077202078201079202080202080205080206078206078205077204079204079205080205080206080207078207078206078205078206080205080206080207078208078208078207078206080206080206080207080208080209078209078208078207080207080207080208080209)))
 (.node 2 (.node 1 (.leaf 80211078210078209078208078208080208080209080210078212077212078210078209080209080209080210080213080213077213077212078210080211080210080213081213080214079214077213077212078212080213081213081214080222079221078221079219080219081220081220080222080223079224079222079222080223081222081223081224000000079240079238079238000000000000000000000000000000000000000000000000000000000000080246000000000000000000000000000000079244080246000000000000000000000000000000000000000000000000000000000000000000000000000000000000000000000000000000000000000000000000000000000000000000000000000000000000000000000000000000000000000000000000000000000000000000079351000000000000000000000000000000000000000000000000077351079351000000000000000000000000079366078366000000000000000000079362079363080364078366078367078366000000079363079363080364081365079369077368078368078367078366081365080366080367078370077368077368078368078366080366080367079369078371077371078371077368078370079369080369080372080372077372077371078371078370080369080372080373080373077373077372077371078371080372080373079374079375077373077373077372080372080373079374080375080379077379077378079376080376080376079377080378080381077382077380077379080379080378080379080380080381078383077382077380079379080379080380080381079385077384077383078383080381080381079382081384079386077385077384077383078383079382081384080386079394077393077393079391079390080390081393080394078395077394077393077393079391081393080394081394078395078395077394077394078395081394080396079396079399077397077397078395078395079396079398079398)
 (.leaf 78404078403077403078403078403079402079404080405079408078408077406078406079404079405080405081408078408077407078408077406079405080405081408079408078410077411077409077407078408079408079408081410079413077412078412077411078410081410081411079413078413078412077412078412078410081411079413080414078415078414077413078412078413080414080415079415079418078418077417078414078415079415081416079417078420079421077420078419078419080419080420080421080423078422078421079421080422081422080423081424080425079425078422078421080422080423081424081424079426079425079425078422080423081424081424081425080427079428078426079426080425081427081427081427080432078431079430079430079429080429080432081433080433079433078431079430080430080432081433080432080435079435079433079433080433080432080433081435079438078438078437079435080435081435081436081437079439078439078438078437080435081436081437081437079444079443079441079441080441080442080443080444080446078445079444078443080444080445081446080445080450079451077450079448080449080448081449080452080456079455078453079452079452081453080455081456080464078463079462079462080462081463081463081464080465077465078464078463080464081464081464081466080467077467078466077465080465081466080466080467080469078468077467078466079466080466080467081469078470078469078468077467080467080467081469081470078473078473078472078471079471079472079472079474079477078475079474078473078473079474080474080477079478078478078475079474079474080474080477079478080480078481078478077477078478081479080480081480078482077483078482078481080480081480080480081482))
 (.node 1 (.leaf 79484077483077483078482079480080480081482080484080484079485077483077483078482081482080484081484080489078489078488079488080487080487080488000000079495077494077493079491079491079491080492079494080504078504077503078502079502079502080503080504078509077510077508077508079506080506079507080508078509078509077510077508078508079507080508000000079513077513078512078509078509000000080510080511078513078514077513078512079510080510080511079513000000000000077514078514078513079513080515079515078518078517078516077516000000079516080518079518080528077528078526078525079525080525080526080527079530077528077528078526079526080526080527080528079531078531077528077528080528080527080528079530080540078540078537077536078536079536080537080540079541077541078540078537079537080537080540080541079542077541077541078540080540080540080541081541079554077553077552077551079550079550080551080552079555077553077553077552079551080551080552080553079560077559077558078558080557080558080559080560080561079560077559077558079557080559080560081561079563078563078560079560080561081561080562079563079564079563078563078560078562080562079563081564079567078567079566078565080565080565080566081567080570078571078570079568078569080569080570079571079572078572078571078570078570080570079571080572080575078575078574077574079573080573079574080575079581078579079578078577079577079577080578080581078581078580078579079578079578080578080581079581080583077584077584078583078582081583081584080585079586077586077584077584079582081584080585079586079587078587077586077584080583080585079586081586)
 (.leaf 79591078591078590078589080589080589080590080591079596079595078593079593079592080592081595080596079605078603078602079601079601081601080602080603079606078606078603078602079602080602080603080606080609079609079608078607080607081607081607081609080611078611079610079610080610081610080610080611079614078614078611079610079610080610080611080614079615079614078614078611080611080611080614080615080617078617078616078615079615080617081618081618080619078619078618078617080617081618081619080619078622078622079621079621079620081620080621079623080626078628078625078624079624080624081626080626080627077629078628078625079625081626080626081627080629077629077629078628080626080626081627081629079633077632077632078631079629080631080632080633079634078634077632077632079630080632080633079633080639079639078639078638079636079637080637081640000000000000078639079639080639081640000000000000000000000000000000078639079639000000000000000000080645077645000000000000000000000000000000081646079647078647077645000000000000000000081646081646000000000000078647077645080645081646081646081647000000000000000000000000000000000000000000000000000000000000000000000000000000000000000000000000000000000000000000000000000000000000000000000000000000078105000000000000000000000000000000000000000000079106078105000000000000000000000000000000079108000000079106078105000000000000000000000000000000000000000000079106000000000000000000081110000000000000000000000000079108000000081110000000000000080113080110000000000000000000000000000000000000079114080113080110000000000000000000000000)))))
 (.node 8 (.node 4 (.node 2 (.node 1 (.leaf 81116079116080115079114000000000000081113081114081117079116080117079116081116081114081115081116081119079118079117079116081117081116081119082120081120079119079118079117081119081119082120082120081122078122080120079119081120082120081122081123081124080123078122080120081121081122081123082123081124080125080123080123081124082123082124081124081129080128078127080126081125080126081126081129081129080130079128080128081129081129082129082131080133079133078132080130081129082131080132080133079141079141079140078139079138000000081140082141079142079142079141079140079140081140082141082141079143000000079142079141079141082141082141081143080144079144000000079142079142082141081143081144080145078144079144000000079143081143081144082145079148000000079148079147079147080146082148082149079149078150078149000000079148082149080148082150080152079150078150078149080148080148082150081152081152079151079150078150079149082150081152081153081158080158080157079156081155082156081157081158079166078167078166079166079166080165081165081166079168079167078167078166080165081165081166080168079170079169079168079167079168080168081170080170081171079171079170079169079170080170081170081171079172079172079171079170081170081170081171081172080176079174079173079172079172081172082173082174079175079175079174079173080173082173082174081175079178079177079176079175079175081175080178080178080182078181078180078180079179080179082180080182079187078187079186080183080183082184082185082186079187079188078187079186080184082185082186082187080189079189079188078187079187082186082187082187)
 (.leaf 79190079190079189079188079187082187082187080190079193079194079191078190079191080191081193080193080196078196079195079194079193080193080195080196079199078199078198078198079197080197081197082199080201078200078199078198079197081197082199080201079202078201078200078199079199082199080201081200080205078204078203078201079202080201080202080204081213080213078212080211080210081212081213082214080222080222080219080219081220081220082221082222081222080223080222080219081220082221082222000000000000080225080223080223081223000000000000000000000000000000000000080225000000000000000000000000000000000000000000000000000000000000000000000000000000000000000000000000000000000000000000000000000000000000000000000000000000000000000000000000000000000000000000000000000000000000000000000000000000000000000000000000000000000000000000081243080246079244000000000000000000000000081243081244000000000000079244000000000000081243081244081245000000000000000000000000000000081245080248080248000000000000000000000000000000080248000000000000000000000000000000000000000000000000000000000000000000000000000000000000000000000000000000000000000000000000000000000000000000000000000000000000000000000000000000000000000000000000000000000000000000000000000000000000000000000000000000000000000000000000000000000000000000000000080360081361079362000000000000000000000000080360081361081362079363079363000000000000000000081361081362081363081365078366079366079363079363081363081364081365079369078370079369078366080366081366081367081368080372078371078370078370079369081368080369081372))
 (.node 1 (.leaf 80373080372078371078370080369080369081372080372079375078374079375080373079374080373082373081376079377079377080376079375080375080376080376081377079382078383080381080381080380080381082383081384081384079385078383080381080381082383081384082385080386079386079385078383079382081384082385081384080387079387079386079385081384082385081384080386081393079391079390079389080389080390082392082393080394079394079391079390080390082392082393082393081394078395079394079391081393082393082393082394079396078395079396078395081394082394082394082395079398079399079396078395079396082395081396081397079399079400079399079396079398081396081397081398079401079401079400079399079398081397081398080401079401079402079401079400079399081398080401080401079404078403078403079402079401080401082402082403080405078404078403078403079402082402082403080404081408079408079405079404079405081404081407081408079408078408079408079405080405081407081408081409079408079410078408079408081408081408081409082410081410078410079410078408079408081409082410082410081411078410078410079410079408082410082410082411079413079413078410078410081410082410082411082412080414078413079413078410081411082411082412082413080415078415078413079413079413082412082413081415079417079418079417078415079415081416082417081416080419078419079418079417081416082417081416082418080420079420078419079418079417081416082418080419081425079426080425080423081424081424081425081426081428080429080427080426081427082427082428082428081433080432080430079429080429081429081430081431081435080435079433080433080432081434082435082435)
 (.leaf 81437079438080435080435081435082435082436082438081437079439079438080435081436082436082438082438080440079440079439079438081437082438082438082439080441080441079440079439081437082438082439081441081448079447079446080446080445081447082447081447081452079451080450079449081449081449081452081453080455079453079452079451081452081453000000081453081456080456079453079452081453000000081453081456081469080469080467079466080466081466081467082469079471079470078470080469081469082469081469081470079472079471079470078470081470081469081470081471079472078473079471079470079471081470081471081472079474078473078473079471079472081471081472082474080477079477079474078473079474082474082474080477079478079478079477079474080474082474080477081478080480079480078478079478079478081478081479081480081480080480079480078478081479081479081480082480081482078482079480080480081480082480081482082483080484079484078482079480080480081482082483082483081484080484079484078482081482082483082483082484081486079488080485080485081484082484081485081486079491079491079490080489000000081489081490080492079494079495079492079491079491080492081492082494079496078495079495079492080492081492082494082496080497079497078495079495079494082494082496081497079497000000079497078495079496082496081497081498079501078502079500079499079500080500082501080502079506079505080504079503080503080503081504081505079507078508079506079505079506081505081506080508079513078513079513079510080510080511080511080513080518000000000000000000079515080515080517080517079521079520079519078519079518080518080519080521)))
 (.node 2 (.node 1 (.leaf 79523079522079521079520079521080521080521081522079524079523079522079521079522080521081522081523079524079524079523079522079523081522081523082525079533078532079533079532080530081530081531081532079536079535079534079533080533081533080534081537079536078536079535079534080534080534081537081538080540080540079537078536079536081538082539082540080541079541080540079537080537082539082540081541079544079544000000079542081541082542082542081544079545079545079544000000079543082542081544081545079545000000079545079544079544081544081545081546079545079545000000079545079545081545081546000000079546079546079545000000079545081546000000081546079549078549079548079547080547081547082549082550079550079550078549079548080548082549082550000000081555078555079555079554080552000000080553081554079557079557078555079555080553080553081554081555080558080557079557078555081555081554081555081558080565080565079564079563079563081563081564081565080566080565080565079564081564081564081565081566080569078569079568079567081567081567081568080569080570078570078569079568080566081568080569082569079574079574079573078573080572081572080573081574080578079576080575079574079574081574081577080578079577079577079576080575080575081577080578081579080581079581079578079577079577081579082580081581079581078581079581079578080578082580081581081582081584079582078582078581079581081582081583081584079586079586080583079582081584081584080585081586079588078588079587079586079586081586081587081588080589080589078588079587081586081587081588080588081595079595079592078591080591080591081594081595)
 (.leaf 80596079596079595079592080592081594081595000000081598079598078598079598079598081596081597081598081600079600079599079598081598081598081599081600081601079601079600079599080599081599081600081601080606079606079605079602080602081602081605080606081607080607079606079605080603081605080606082606080614079614080611079610080610081610081611081612080615079615079614080611080611081611081612081615081619079618080617079616081618081618081619082620081620079620080619079618081619082620081619082620079623078622080621079620081620082620080621081624079624079623078622080621080621080621081624082625081626079625079624079623079624082625080624082626081629080629080627080626080626081626082628081628080632079630079629080629081629081628081631080632079635079634078634079634079633081632081633081634079636079635079634078634080633081633081634081635079637079636079635079634079635081634081635081638081640080639079639079636079637081638081639081640000000000000079639080639081640081640000000000000081646080645000000000000000000000000000000081646081647000000079647080645081646081646000000000000000000000000000000079647081646000000000000000000000000000000000000000000081647000000000000000000000000000000000000000000000000000000000000000000000000000000000000000000000000000000000000000000000000000000000000000000000000000000000000000000000000000000000000000000000000000000000000000000000000000000000000000000000000000000000000000000000000079108000000000000000000000000000000000000081110000000079108000000000000000000000000000000000000000000000000079108000000000000000000000000))
 (.node 1 (.leaf 82112000000000000000000000000000000000000082112000000000000081129081129080128081125080126083126081126082127082129080128081129080128081126081126082127083129080132080132081129080128082129083129082129083131080133080133080132081129082131082129083131081133080134080134080133080132080132083131081133081134000000079138080138080137082137083137082138082139082141079141079140079138000000082139082140082141081143079143079142079141082141082141082142083143081144080144079143079142082141082142083143083144080146079147080146080145082145083145083145083146082149079148079147079147080146083146082148082149080148080148079148079147082148082148082149083149082150079149080148079148082149082149083149083150081152080152079149080148080148083149083150082150081153081152080152079149082150083150082150083152081162080162080161080160080160082158083161083161081165080165080164080163082163081162082164082165080168079168079166080165081165082165081166082167081170079169079168079166081166081166082167081169082173080173079172081171081171082171082172082173082174080176080173079172081172082172082173082174080178080176079175080176082174082174082175082176080178079178080176079175081175082175082176083177080179079179079178080176080178082176083177082178082180080181079179079178080178083177082178083180080182080182080181079179080179082178083180082180082183080183080182080181082180083180082180083182082183081183080183080182080182082180083182083183082185080184080183081183082183083183083184083185082186079187080184080183082184083184083185083186)
 (.leaf 82187079187079187080184082185083185083186083187082187080189079187079187082186083186083187082187080190079190080189079187082187083187082187082188080190079191079190080189082187082187082188081191080191079191079191079190080190082188081191081192080201080201079199079197081197081197081198082199080201079202079202080201080201082199082200082201080202080202079202079202081200082200082201081203080204079205080205080202080202081203081205081205080207080206080205079205080204081205082205083206080208080207080206080205081205082205083206082207080210080209080208080207080208082207082208083211081212080210080209080208081208082208083211083211081213080213080210080209080210083211083211083212082216081217081215081215082215083216082215083217081220081220080217081217082216083217083218083220082221081220081220080217080219083218083220082221000000081222080222081220082221082221000000000000000000000000000000081224000000000000000000082225000000000000000000000000000000000000082225083227000000000000000000000000000000082225083227083228000000000000000000000000000000083227083228082230000000000000000000000000000000083228082230082231000000000000000000000000000000082230082231000000000000000000000000000000000000082231000000000000000000000000000000000000000000000000000000000000000000000000000000000000000000000000000000000000000000000000000000000000000000000000000000000000000000000000000000000000000000000000000000000000000000000000000000000000000000000000000000000000080248000000000000080246081244082246082247082248080248000000000000000000081245082247082248081249))))
 (.node 4 (.node 2 (.node 1 (.leaf 80248082248081249082250000000000000000000000000000000081250082252000000000000000000000000000000000000082252000000000000000000000000000000000000000000000000000000000000000000000000000000000000000000000000000000000000000000000000000000000000000000000000000000082356000000000000000000000000000000000000082356081359000000000000000000000000000000082356081359081359080369080369079369080367081367082367082368082369080372080373080372080369080369082369081370081372082373080375079374080373080372081372082372082373081376079375080375079374080373082372082373082376080376080375079375080375082373082373082376081376082381080379080378079377081377081378082378082381080381080380080379080378081378082378082381082382082383080381080380080379082381082381082382082383081384079382080381080380080381082382082383081384082385081384079382080381082383082383081384082385080386080387080386081384082385082385082386082387081388080388080387080386081384082386082387083387080388079388080388080387080386082387083387081388080390080389080388079388080388081388081388082391082392080390080389080388081388081388082391082392082393081393080390080389080390082391082392082393082393080394081393080390082392082392082393083393082395079396080396081394082394082393083395083396080401079401079399079398081397082397082398083400080401079401079401079399081398082398083400082402082402079402079401079401080401083400082402083402082403079404079402079401080401082402083402083403080404080405079404079402082402083402083403083403081407080405079405080405080404083403082404081407)
 (.leaf 81408081408080405079405081404082404081407081408082413080414079413081411082411082412082413082414081415080415080414079413082412082413082414083415081416079415080415080414082413082414083415083415082418080419079417081416082417083416082418083419080419080420080419079417081416082418083419083419081421080421080420080419082418083419083419083421082421081422080421080420080419083419083421083421081425081424081424080423080423082421082422083424081434080432081433080432081430082430082431083432082439080440081437081437082438082438082439083440081441080441080440081437082438082439083440083440082441080442080441080440082439083440083440083441081444080444080443080442082441083441082441082442082444080445080444080443082441082441082442082445081447080445081446080445082444082445083446083446081452080452081449080448082449082450083451083452081453081452080452081449081449083451083452082453081456081456080455081453000000000000083455083455000000080457081456080455081453083455083455083456081459081459081458080457000000083456083457083458082463081463081463081461082461083461083462083463082469081469080467080466081466082466082467082468082474079474079472079472081471083471081472083474082474080474079474079472081472081472083474083474080477080477080474079474082474083474083474082475081478079478080477080474082474083474082475082478081479081479079478080477080477082475082478082479082483081482080480081480082480082481082482083483082484081484080484081482082483083483082484083484082488080487081486081485081485083486000000082487080492079491080490000000081489081490081490082491))
 (.node 1 (.leaf 82494079494080492079491080492082491081492082495082496079496079494080492081492081492082495083495081497080497079496079494082494082495083495083495081498079497080497079496082496083495083495082498080500079500080498079498080498083498083499083500082501079501079500080498080499083499083500082500080502079501079501079500080500083500082500082501080503079502079501079501082501082500082501082502080503080503079502079501080502082501082502082503080508079507080506079506081505083506081506082507080509000000080508079507080508082507083510081510080511080511080510000000080509081510083511083512080513079513080511080510080511083511083512083512080514080515079513080511080511083512083512083515080515079515080515079513080513083512083515083515080517079516079515080515080514083515083515083516080517079518080518079516080517083516081516081519080518079518079518080518080517081516081519081519080521079521080521079518080518081519082519081521082525079524079524079523081522082524083525082526080526080525079524079524081523083525082526082527081528080526080525079524082525082526082527081527080529079530080528080527080527082527082528082529080534080534080533079533081532083532083534083535081537079536080534080533081533083534083535082537081538079536079536080534080534083535082537081538081541080541080540080537082539081538082540081540081544079544079543081541082542082542082543083543081545079545079544079543082542082543083543082545082549080548080547079546081546081546082547082548082550079549080548080547081547082547082548082549000000079550079549080548082549082548082549082550)
 (.leaf 81553080551079550079549082550082549082550082551000000080552080551079550000000082550082551082554081558080558079557081555081554082556082557082558000000080559080558079557081555082557082558082559081561081561080560080559000000082559081560082561080571079571080570080569080569082569081570081570080573080573080572079572080572081571082572081574081577080575079574080573080573081574082574081577080578080578080575079574081574082574081577083577082580080578079577080578080578083577083577083579081582079581080581080578082580083579082581082582081591080591080590080589080588000000082588083590081594080592080591079591080591082592081593082594081605080603080602081601081601081602083604082605080606080606080603080602081602083604082605083606082607081607081607080606080606083606082607083608081610081609081609081607082607083608083608083609081615080615080614080611081611082611082612081614080621080621081620080619081619082621083621081623081624079623080621081620082620083621081623082624082626081626080624079624082625083623083626082627080632080632080631081629081628082630082631082632081639080637079637079636081635081636082638082639081646081646000000000000000000000000000000000000000000081646081646000000000000000000000000000000000000000000000000081647000000000000000000000000000000000000000000000000000000000000000000000000000000000000000000000000000000000000000000000000000000000000000000000000000000000000000000000000000000081110000000000000000000000000000000000000000000000000081110000000000000000000000000000000082112000000000000081110000000000000000000000000)))
 (.node 2 (.node 1 (.leaf 81113000000000000000000000000000000000000083115081115081114081113000000000000000000083115083116081116081115081114082114000000083115083116081118081119081116081115083115083115083116084119083119082120081119081116083116083116084119084120083120082120082120081119081118084119084120084120083122081123081122082120083120084120083120084122083123082123081123081122082120083120084122084123081126081126080126081124082124082125083125083126083129082129081129081126081126083126082127083128083131080132082131082129083129083128083131084131081134080134080133080132083131084131083131083132082135081135080134080133081133083131083132083135083135081136081135080134081134083132083135083136082138081138082137081136083135083136083137083138083145082145081144081143083143083143083144083145083145081146082145081144083144083144083145083146082148082148080146081146083145083146083147083148082149082149082148080146083146083147083148083149083152081153081152082150083150083151083152083153082154081154081153081152082150083152083153083154083154081155081154081153083152083153083154084154083157081157082156081155083154084154084155083157081158081159081158081157083157083157083158082158083161081161080160081159081158082158082158084160083161081162081161080160082158082158084160000000081162082163081162081161083161084160000000083161082164081164082163081162083161000000083161083162081166081166081165080165081165082165083165084167081169081170080168081166081166084167083167083168081170080170081170080168082167083167083168083169)
 (.leaf 83177080178080178081175082175083175083176083177083180082180080179080178083177083177083180083181083182082183080182082180083180083181084182084183083183082183082183080182082180084182084183084184081191080190080190082187082187084187084189084189081192080191080190080190082188084189084189084190082193081193080191080190081191084189084190082193081193080193081193080191081192084190082193082194081197081197080197080196081196082196082196082198081203080202080201081200082200082201084202082203081205080204080204080202081203082203083203082205083206080207081205080204081205082205082205083206083211080210081208080208082207082208082210082210083212081213081212080210083211082210083212084212082214082214081213081212083211083212084212084213082215081215082214081213083212084212084213084214083218080219082216082215082215083217083218083219083220081220080219082216083217083218083219083220082221082221081220080219083218083219083220000000000000082222082221081220083220083220000000000000000000000000000000000000000000082223084224083226083227000000000000000000000000083226000000000000083228000000000000000000082225000000000000000000082230000000000000000000083227000000000000000000082231000000000000000000083228000000000000000000000000000000000000000000000000000000000000000000083242000000000000000000000000000000000000083242081245081243000000000000000000000000083242084245082246081244081243000000083242083242084245082246082247081245081244081243081245084245082246084246000000000000000000000000000000000000000000000000000000000000000000000000000000000000000000000000))
 (.node 1 (.leaf 83351000000000000000000000000000000000000083351084353000000000000000000000000000000083351084353084355000000000000000000000000000000084353084355082355081359000000000000000000000000084356083356084358081359000000000000000000082356083356084358083360081360000000000000000000081359084358083360084359081361080360000000000000081359083360084359083360081362081361080360000000081360084359083360084361081363081362081361080360081361083360084361082364081363081363081362081361081362084361082364082364081370081372080369081368082368083368082369082371082376081376082373080373082372083372083375082375081378081377080376080376081376082375082378083379082381082381081378081377081378083379083380082380081388081388080388081388083387083388083389083390082391080390081388080388081388083389083390083391082392082392080390081388081388083390083391083392083397081396082395082394083395084396084396084397083400080401081398081397082397084397083398083401082402080401080401081398082398083398083401084402083402082402080401080401083400083401084402084402081407081407081404080404083403083403083404083405081408081408081407081404082404083404083405083406081409081409081408081407081407083405083406083407082410082410081409081408081408083406083407083410082411082410082410081409081409083407083410083411083416082417081416081415083415084414083416084417082418081416082417081416083415083416084417084417083421081421080419082418083419083419083420083421083421082421081421080419083419083420083421084422083424081425081424080423082421083421083422084424)
 (.leaf 82426081426081425081424082422083422084424083424083426082427081426081425083424084424083424084426083432081434081431081430082430082431082431084432082435082435081434081431082431082431084432083433082436082435082435081434083432084432083433082435083441082441081441082439083440083440083441084441082445082444081444082441082441083441083442084444083446082447081447082444083446084445084445083446082450082449081447082447083446083446083447083450082453081453081452081449083451083451083452084453000000000000081453081452083452083452084453000000083455081456081453000000000000000000084455084456083456000000081456081453083455084455084456084456083457081458000000081456083455084456084456084457083458081459081458000000083456084456084457084458083459082460081459081458083457084457084458084459000000082460082460081459083458084458084459084460083471081471081470081469082469083469083470083471081472081472081471081470082470083470083471084472083474082474081472081471083471083471084472083473082478081478080477082474083474083474083475084478082479081479081478080477082475083475084478083479083486081485082484082484083484083485083486000000000000081486081485082484083485083486000000083486081490081489081488082488082487083487083488083489081490081490081489081488082488083488083489082491081492081492080492081490081490082491083491083494082495082494081492080492082491083491083494084495083498080498081498081497083495083497084497084498083500080500080499080498083498084498083498083499081506081506081505081504082504082505083505084508083510081508080508081506081506084508084508083510))))))))
 (.node 64 (.node 32 (.node 16 (.node 8 (.node 4 (.node 2 (.node 1 (.leaf 81510080509081508080508082507084508083510084511083511080511080509081508083510083510084511084511083512080511080511080509081510084511084511084511083512080513080511080511083511084511084511083512083515080514080513080511083512084511083512083515083515080515080514080513083512083512083515083516083516080517080515080514083515083515083516084517081516080517080517080515083515083516084517084517081519080517080517080517083516084517084517084518081519080518080517080517081516084517084518082519081521080521080519080518081519082519083519084520082523080521080521080519082519083519084520083521082524081522080521080521081521084520083521083524083530081530080529081528082528083528084530084531082533081531081530080529082529084530084531084532083532081532081531081530083530084531084532084533083535080534081533081532083532084533084533083534082537081537080534081533083534084533083534084536081538081538081537080534083535083534084536082537082540082540082539081538081538082537083539082539082543082542082542081541081540082539083542083543081545081546081545081544083543084544083545083546082554000000081553000000082550083550083551084553000000080553000000081553082551083551084553082555082564081564081563081562081561083560082563082564081571080572080571080571081570082570084570082572081577081577081574080573081574084574084575083577083577080578081577081574082574084575083577084576083577081579080578081577081577083577084576083579083579082580081579080578083577084576083579083580082581081581082580081579083577083579083580082581082586081586080585081584081583084584084584083586)
 (.leaf 82587081587081586080585081585084584083586083587083590081591081590080588000000083589082590083591081593080591080591081591083590083591083592082593081602081601081600081599082599083599083600084602083604081602081601081600082600083600084602083604082605081605081602081601081602084602083604084605083606080606081605081602083604083604084605084605083609081610081609082607083608084607084608083608081615081616081615081612082612083612082613082615081617081618081617081616081615082615083615084617083619081619081618081617082615083615084617084617082620082620081619081618081617084617084617083618082621081619082620081619083619084617083618083621082624081624080621082620083621084621084622084624083623082625081624080621081623084622084624084624083633081633081632080633081632082632084633083633081636081635081634081633083633083633082636084636082639081639081638081635081636084636082638084638000000000000000000000000000000000000000000000000000000081646000000000000000000000000000000000000000000000000081646000000000000000000000000000000000000082112000000000000000000000000000000000000000000000000082112000000000000000000000000085111000000000000000000082112000000000000085111083113000000082114000000000000000000083113000000000000084119081118083116083115083115084115084116085119084120083119081118083116083116084116085119085119082125082124082123083123084123084122084123084124084131083131082129083129083128084128085131085131083135082135081134081133083131084131083132084135083136083135082135081134083132083132084135084136082140082141082140082139084139084139084140084141))
 (.node 1 (.leaf 83142082142082141082140082140084140084141084142083143083143082142082141082140084141084142084143083157083157083156083154084154084155084156084157084160083161082158081158082158083158084160084161000000083161083161082158082158084160084161084162083165082165082164081162083161084163085163085165082165081165082165082164083162085163085165083165084167081166082165081165082165083165083165084166082172082171082170081170083169083169084170083172083180082178083177082176083176085178085179085180083181083180082178083177083177085179085180084181084189082188082187083187084187085187085188085189084189081191082188082187084187085188085189084189084190081192081191082188084189085189084189085190082193082193081192081191084189084189085190085191082194081193082193081192084190085190085191083194082194081194081193082193082193085191083194083195082198081197081197081196082196083196084198084199084200081198081197081197082196084198084199085200082200082199081198081197082198084199085200085201082201082200082199081198084200085200085201084200084202082201082200082199082200085201084200084201082203081203082201082200082201084200084201084202082205081205081205081203082203084202084203084204082205082205081205081205083203084203084204085205082208082207083206082205082205085205085206085208082210082208082207083206083206085206085208085209082210083211082208082207082208085208085209084209083212083211083211082208082210085209084209084212084214082215082214083212084212084213084214085214082215083216082215082214084213084214085214085215083217082215083216082215084214085214085215083217)
 (.leaf 82221000000000000085221085223082223000000000000000000000000085221085223085223084224000000000000000000000000085223085223084225083226000000000000000000082223085223084225083226000000082225000000000000084224084225083226083226000000082231082230083228000000000000000000000000000000000000082231082230000000000000000000000000000000000000000000082231000000000000000000000000000000000000000000000000000000000000000000000000084245081245083242000000000000000000000000000000082246082246081245083242083242000000000000000000084246082247082246081245084245000000000000000000082249081249082248082247084246000000000000000000084249082250081249082248083246000000000000000000082251081250082250081249082249000000000000000000083252082252081250082250084249000000000000000000000000000000082252081250082251000000000000000000000000000000000000000000000000000000000000000000000000000000000000000000000000000000000000000000000000000000000000000000000000000000000000000000084353000000000000000000000000000000000000000000084355000000000000000000083351000000000000000000082355000000000000000000084353000000000000000000084356000000000000000000084355000000000000084355084358081359082356000000084356084355084356085358083360081359081359082356083356084356085358085358084359081360081359081359084358085358085358084359084361081362081361081360084359084359084360085361082364081363081362081361083360084360085361084362082364081363081363081362084361085361084362084363082365082364081363081363082364084362084363084364082369082369082368082367083367084367083368085370)))
 (.node 2 (.node 1 (.leaf 82371081370082369082368083368083368085370085370082372081372081370082369082369085370085370084371083375082373082372081372082372084371085373084375082375082376082373082372083372085373084375083375082378081378081376082376082375083375084375084376083379081378081378081376082375084375084376084377083380082378081378081378082378084376084377084378082384081384082383082382082381083381083383083383083401083400082398082397084397085398085400085400083410082410081409081408083406084406083407084408083411082411082410081409083407083407084408084411083416083415083415082414084414085414085415085415083419083419082418083416084417085417085418085418083420083419083419082418084417085418085418084420084424083424082422082421083421085423085423085424084426083426082426083424084424085424085425085426084428082429082428083426084426085426084428085428083430083430082429082428084426084428085428085429084430083430083430082429084428085428085429085430082435082436082435083432084432084432083433085435084436082437082436082435083433083433085435084437084437082438082437082436082435085435084437085437082439082439082438082437084436084437085437084439083440083440082439082438084437085437084439085440083441083440083440082439082439084439085440084441084444082445082442082441083441084441084442084443084445083446082445082442083442084442084443084444084445083446083446082445084444084443084444084445083450082450082447083446083446084446084447084450083451083451082450082447083447084447084450085451084455083455000000082453084453084453085454085455084456083455083455000000000000085454085455085456)
 (.leaf 84461083461000000083459084459085459085460085461000000082464000000083463084463085463085464085465084467082466082465082464000000085465085465085466084472081472083471082470083470085471084471084472084478082478082475083474083474083475083475084478083479082479082478082475083475083475084478085478084479082480082479082478084478084478085478085478084482082482082481082480084479085478084481084482083484082484083483082482084482084482000000083484082491081490081490082488083488000000084489084490083494081492082491081490082491084490084491084494084495082495081492082491083491084491084494085494084497082498083495083495084495085495085495084496082501082501082500083500083499084499085501083502082505082504082503082502082502084502085503085506084508082507081506083506083505084507084508085508083510083510082507081506084508084508085508085508084511081510083510082507084508085508085508084511083515083515083512083512084511085512085512084513083516083515083515083512083512085512084513085515084518081519081516083516084517084517085518085518082519081519081519081516084517085518085518085519084520081521082519081519082519085519084519083521083524082524082523081521084520083521083521083524083525083525082524082523083521083521083524084525084530082529082528082527083527083527084528084529084532082533083530082529084530084529084530084531084533083534083532082533084532084531084532084533082537081538082537083535083534084534084535085537083539081538081538082537084536084535085537084537082539082540081538081538082537085537084537085539083542082542081540082540082539085539084541084542))
 (.node 1 (.leaf 83543082543082542081540082539084541084542083543082548082548082547081546083546084546083547084548084553082554082551082550083550084550085551084552082555000000082554082551083551085551084552084553082556082557082556000000082555084553085555085555082557082558082557082556083554085555085555083558083559082559082558082557082556085555083558083559082563082563081561082561082560083560083562084563083565081564082564082563082563084563084564084565082565082566081564082564082564084564084565083565083568082568082567082566082565083565084567083568082569082569082568082567082566084567083568083568082570081570081570082569082569083568083568084569084570082572081570081570083568083568084569085571082572081571082572081570082570084569085571084571082573082572081571082572084570085571084571084572084574081574082572081571082572084571084572084573084575082574081574082572082573084572084573084574083577081577082574081574084574084573084574085576084576083577081577082574084575084574085576084576083580083579083577083577084576084576085578085580082582082583082582082581082581085581085581084583084584081585081583082583082582084583084584084585083586082586081585081583084584084584084585083586083587082587082586081585084584084585083586083586083604083604081602082600083600083601085602084604084605082605083604081602084602085602084604084605084607082607083606082605084605084605085606084607084608083608083608082607084607084607085607085607084610082610083609083609083608084608084609084610084611082611082610083609083609084609084610084611082613081614082612082611084611084611085612084613)
 (.leaf 84617081617082615081615082615083614085615084618084617083619081617082615083615085615084618085618084621083621082621082620083618084620085621084622084624082624081623083621084621084622084623084624083626083626083623082624084624084624084625083626083627082627083626083623084624084625083626084627082631082632082631082630082630083629084629084630082632081632082632082631082631084629084630084631084633081632081632082632082631084630084631084632082636082634083633081632084633084632084633084634084636081636082634083633083633084633084634085637082638082638081636082634082636084634085637084636084638082639082638081636084636085637084636000000000000082640082639082638082638084636000000000000000000000000082640082639084638000000000000000000000000000000000000082640000000000000000000000000000000000000000000000000000000000000000000000000000000000000000000000000000000000000000000000000000000000000000000000000000000000000000000000000000000000000000000000000000000000000000000000000085111000000000000000000000000000000000000086111083113000000000000000000000000000000086111085114000000000000000000000000085111086111085114000000000000000000000000000000083113085114000000000000085119084119083116083115084115085115085118086119085119084120084119083116084116085118086119086120083121084122083120084120084119085119086120085121085126083126083125082125084124085124084125085126083127082127083126083125084125084125085126085127085131084131083131083128084128085128084129085130083132083132083131084131085131085130085131086132084135083135083132083131084131085131086132085135))))
 (.node 4 (.node 2 (.node 1 (.leaf 84136083136083135083132083132086132085135085136083149083150083149083148083147084147084149084149083152083152083151083150083149084149085151084151084154083154083153083152083152084151084153085152084160082158082158083158085157085158086158085158084161084160082158082158083158086158085158085161083165082165083165083162085163086164086165085166083165083165082165083165085165086165085166084166083169083169083168083167084167085167085170085171083172082172083170083169083169085171085172085173083173083172082172083170084170085172085173086173083174083174082174083172083173086173086174085174083176083175083174082174084173086174085174086175085178083176083175083174083174085174086175085178085179083177083176083175083176086175085178085179085180083180083177083176085178085178085179085180084181083181083180083177085179085179085180084181084182084182083181083180085180085180084181084182085189084189084187084187085187085188085189086190085191082193084190084189084189085189085190085191083194082194082193084190085190085190085191086193083195082194082194082193085191085191086193086193083195082195082194082194083194086193086193085196083196082196082195082194083195086193085196086196084198082196082196082195083195085196086196086198084199082198082196082196083196086196086198086199085206083206082205082205084204084205085205085206085208082208083206082205085205085205085206086208085209082210082208083206085206085206086208085208084212083212082210082210085209085208086209084211083217083217082215084214085214086214086215086215083217083218083217082215085215086215086215086216)
 (.leaf 84219083219083218083217083217086215086216000000000000083220083219083218083217086216000000000000085221000000000000083220000000000000085219085222085223000000000000000000000000085219085222085223085223082223000000000000085221085222085223085224084225084224082223000000085223085223085224086224084228000000000000083226083226086225084227085228000000000000000000000000000000086228000000000000000000000000000000000000000000000000000000000000000000000000000000000000000000000000000000000000000000000000000000000000000000000000000000000000000000000000000000000000000000000000000000000000000000083242000000000000000000000000000000000000000000084245083242000000000000000000000000000000000000082246084245083242000000000000000000000000000000082249083246084246000000000000000000000000000000084249082249083246000000000000000000000000000000083252082251084249000000000000000000000000000000000000083252082251000000000000000000000000000000000000000000083252000000000000000000000000000000000000000000000000000000000000000000000000000000000000000000000000000000000000000000000000000000083351000000000000000000000000000000000000000000084353083351000000000000000000000000000000000000082355084355084353000000000000000000000000085358084358083356084356084355085355085356085357083366083366083365082365084364084365085365084367083368083368083367083366083366084367084367085370085370082369083368083367084367084367085370086370085370082371082369083368083368085370086370086370085373083372082372082371085370086370085371085372084375083375083372082372084371085371085372085375))
 (.node 1 (.leaf 83375082375083375083372085373085372085375085376083381082381082380083380084378084379084381085382083383082384083383082381083381085382085383084384083384083385082384083383083383085383084384085385083385082386083386083385083384085385085386084386084389083389083388082386083385084386085388085389083389083390083389083388083388085388085389085390083391083392083391083390083389085390086391085392083393083393083392083391083390086391085392085393084394083394083393083392083391085392085393085394084395084394083394083393083393085393085394084395085400083401083398084397085398086398085400086400085400084402083401083398085400085400086400086401083404083403084402084402084401086402086402085403083404083404083403084402083403086402085403084405083407083407083406083405084405084406085406085407084411083411083410083407083407085407085408085411085412083412083411083410084408085408085411086412085414084414083413083412085412086412086413086413085415084414084414083413085413086413086413085415085417084417083416084414085415085415086416085417085418084417084417083416085415086416085417085418084420083420083419084417085418085418086418086419085421083421083420083419085418086418086419086421085423083421084422083421085421086421086422086422085424084424083422083421085423086422086423086423085426084426083424084424085424086423086425085425085428084428084426084426085426085425086427085427085430084430083430084428085428085427085428085429083431082431082431084430085430085429086430085431083433083433084432082431083431085431086433086434085435082435083433084432084432086433086434000000)
 (.leaf 84437084436082435083433083433086434000000000000085440083440082439084437085437000000000000085438085440084441083441083440085440085438085439085440084450083450083447083446084446085446085447085450085451083451083450083447084447085447085450086451084453084453083452083451085451086451086452086453085454000000084453083452085452086452086453085454085456084456084455000000085454085454086455086456085465083465000000084464085464000000000000086466085466084467083465000000085465000000086466085466085471083470083469083468084468086468085469085470083475083474083473084472084472085472086474085474083475083475083474083473084473086474085474086475084478084478083475083474083475085474086475085478085478083479084478083475083475086475085478086477084482084482083481084479085478085478085481086481083485083485083484084482000000085483086483086483083486083486083485083484083484086483086483086485083486000000083486083485083485086483086485086485083486083486000000083486083486086485086485084487084494083494083491082491084490085490085491085492085494084495083494083491084491085491085492085493085501083500083499083498084498085498085499085500083502082501083500083499084499085499085500085501085503083503082502082501083502085501086503086504085506082505083503082502084502086503086504085506084507083505082505083503085503086504085506086507084508084508083505082505085506085506086507086508084511084511083510084508085508086509086509086510085511084511084511083510085508086509086510086511085512083512084511084511085511086511086511086512085515083516083515083512085512086512085513086514)))
 (.node 2 (.node 1 (.leaf 84517084517083516083515084513085513086514086516085518084517084517083516085515086514086516085518083521083521084520083519084519086520086521086522083524083524083521084520083521086521086522086523084525083525083524083521083521086522086523084525083526083526083525083524083524086523084525086525085539082539083539082537085537085536085537085538084541082539082539083539084537085537085538085539084542083542082539082539085539085538085539086542083544083545084544083543083543086542085544084544083546082546083546083545083544084544084544085545085555083554082555084553084552084552085553086554085555082556083554082555084553085553086554085555083558082557082556083554085555086554085555085556083559083559082557082556085555085555085556086558083560083560083559082557083558085556086558086558083560082560083560083559083559086558086558084560084563082563083560082560083560084560084562085563083568083568082569083568083568084567085567085568085578083579084576083577085576085577086578085579085580083580083579084576084576086578085579086579085581082581083580083579085578085579086579085581085581083582082581083580085580086579085581084582084583082582083582082581085581085581084582084582083588083589083588083587083586084586085588085589084590082590083589083588083587085588085589085590084591083591082590083589083588085589085590084591084595083595082594082593083593085593085594084594083598082599082597083596084596085596084597085598083601083600083599082599083598085598085599085602085602084602083600083599084599085599085602085603084605084605083604084602085602085603086603085605)
 (.leaf 85607084607084607084605085606085606086607086607085612083612084611084610084610085610086612085612083614082615082613083612085612085612086613086614085615083615082615082613084613086613086614086615084618084617083615082615083614086614086615085618085621083621083618084617085618086619086619085621083628083628083627083626083626084625085627085628083629082630083629083628083628085628084629085628085637084636082636083633084633086634085636085637000000084638082638084636085637085637000000000000000000000000000000000000000000000000000000000000000000000000000000000000000000000000000000000000085114083113085111000000000000000000000000086112000000000000083113085111086111000000086112086113085118084116084115000000000000085114087115086118086119085119084116084115085115087115086118086119086120085121084119085119086120087119086121087121086123084123084122083121085121087121087122086123084125084125084124084123086123086123086124087126084129085131084128083127085127086127086128085130086132083132084131085131085130085130086131086132085135084135083132084131085131086131086132086133085136084136084135083132086132086132086133085136084140084140084139084138084137085137086137085140084140084141084140084139084138086137085140085140085143084143084142084141084140085140087141086143085147084147084146084145084144085144087146087146084149083149083148083147084147087148086149086150085151084151083149083148084149086149086150085150085155084155084154083152084153085152086154086155085156084156084155084154085152086154086155086156085161084161084160083158086158087158086158086159))
 (.node 1 (.leaf 85162084162084161084160085158086158086159086160085166083165085165085163086164087163087164086166085170084168084167084166085166085166087168087170085171083169084168084167085167087168087170087170086175083176083174084173086174086175086176085177085178085178083176083174085174086176085177086178085185084185084184084183084182085182085184085185086193083194085191085190085190086190087192087193086193083195083194085191085191087192087193087193085196083195083195083194086193087193087193087195086196083196083195083195086193087193087195087196086199084199084198083196086196087196087197087198086199085200084199084198086198087197087198087199085201085201085200084199086199087198087199087199086204084203084202084201085201085202086202087204084205084204084203084202084202086202087204087205086208085208085206085205085205086207087208087208084211084212084209085209085208087208087210086212085213084213084212084209086209087210086212086213085214084214084213084212084211086212086213086214086216083217083217085215086215086216086217000000000000084219083217083217086215086217000000000000000000000000084219083217086216000000000000086218085222085221000000000000000000086218085221085221084227083226083226084225086224087224086224086227085228084228083226083226086225086224086227086228086228000000084228083226084227086227086228085229000000000000000000000000000000086230000000000000000000000000000000000000000000000000000000000000000000000000000000000000000000000000000000000000000000000000000000000000000000000000000000000000000000000000000000000000000000000000000000000000)
 (.leaf 84367083366083366084364084365086364085365086366084367084367083366083366085365085365086366086367085370083368084367083366084367086366086367087369086370085370083368084367084367086367087369086369084377084377084376084375084376086375085376086379084379084378084377084376085376085376086379085379085382083381083380084378084379085379085381086382085386083385083384083383084384087382086383086386085389084389083388083385084386086387086388086389085393083393083391083390086391087391086392087393086396084397084396084395084395086395086396086397085398084398084397084396084395086396086397087397086398085398084398084397086396086397087397087398086400085400085400085398086398087398086400087400086402084401085400085400086400087400086400086401086402083403084401085400086401086400086401086402084406084405083404083404085403086403085404086407085411084411084408083407085407087407086408086409086412085412084411084408085408086408086409087411085418085418085417085415086416087415087416087418086421085421084420085418086418086419087420086421086422084422085421084420086419087420086421000000086423085423085423084422086422000000000000000000)))))
 (.node 8 (.node 4 (.node 2 (.node 1 (.leaf 86433084432083431084430086430000000000000000000086434083433084432083431085431000000000000000000000000085435083433084432086433000000000000000000000000085437084437085435000000000000000000000000085450084450084447084446085446085447086447086450086451085451084450084447085447086447086450087451086455085455085454084453086453087453087454086455086468084468084467085466085466086466086467086468086474084473084472084471086471087472087472086473086475083475083475084473086474086473086474086477085478084478083475083475085474086474086477000000086477085478084478083475086475086477000000087478085481084481085478085478086477087478087479087480086481084482084481085478085478087479087480087481086483083484000000084482086481087481087482087482086485083486083485083484086483087482086483086484086485083486083486083485086483086483086484086485084487083486083486083486086485086484086485086486084487084487083486083486086485086485086486085488084489084489000000084487084487085488000000086489086503084502083502085501085500086500087501086502085506085506085503084502086503086502086503086506086507084507085506085503086504086503086506087507086509085508084508084507086507087507087507087508086510084511085508085508086509087508087508086509086511085511084511085508086509087508086509086510086514085515084513085512086512086512086513086514085518085518084517085515086514086514086515086516086518085518085518084517086516086515086516086517086521083521084519085519086518086518086521000000086522083521083521084519086520086521000000086521086523083524083521083521086521000000086521087523)
 (.leaf 84525084525083524083521086522086521087523087523086525083526084525083524086523087523087523087525084526083526083526084525084525087523087525087526084527083527083526083526086525087525087526087526084529084528083527083527084527087526086527087530084529084529084528083527085527086527087530086531084531084530084529084528084529087530086531087532084532084531084530084529084529086531087532087532085534084532084531084530084531087532087532086534000000084533084532084531084532087532086534086535086542084542084541085539085538087538087540087540086542083543084542084541085539087540087540087542085544084544083543084542086542087540087542085543000000083547084546083546085545000000085546085548084549084549084548083547000000085548086548087550084551084550084549084548085548086548087550087550086554085555084553084552084552086552086553086554086558083559083558085555085555087555086558087558086558083560083559083558085556086558087558086558084560083560083560083559086558087558086558086559084562083562083560083560086558086558086559087561085563084563083562083560084560086559087561086563084563084564084563083562084562087561086563086564084565083565084565084564084563086564086565085565084567083568084567083565084565085565085565087567086574084572084571085571085570087571087573086574086575084573084572084571085571087573086574000000086575084574084573084572086574086574000000000000085577085576084574084573086575000000000000087576086583084584084583085581084582086582000000087583084584084585084584084583084582000000087583087584084585083586084585084584086583087583087584087585))
 (.node 1 (.leaf 84586083586083586084585084584087584087585086587085588083587083586083586084585087585086587000000085589083588083587083586084586086587000000086589085593083593084592084591084591086591086592085593084597083597084596084595084595000000085596085598085602083601084599083598085598086598086601086602085603085602083601084599085599086601086602087603085606085606084605084604086603086604086605086606086612084611084610084609085609086609086612087612086613084613085612084611086612087612086612086613086614083614084613085612085612086612086613086614085618084618085615083614086614086614086615086616086619085618084618085615086615086615086616087619085621085621084620085618086619087619086620085621085622084622085621084620086619086620085621085622085627084627083626084625084624086625086626085626084630084629083629083629084629085628086628086629084631084630084629083629085628086628086629086630084631084631084630084629084630086629086630086631084632084632084631084630084631086630086631086632086634084633084632084631084631086631086632086633085636084634084633084632084632086632086633086634085637085637084634084633086634086633086634000000000000000000000000084636000000000000000000000000000000000000000000000000000000000000086645000000000000000000000000000000000000086645000000000000000000000000000000000000000000000000000000000000085114000000000000085114086112087112087113087114087115085115000000000000086113087113087114087115086118085118085115000000085114087114087115088116086119086119085118085115087115087115088116087119087122085122085121086120087121087122088121087122)
 (.leaf 87127085126084125085124086124086125087125087126085130084129085128085127086127087127087128087129085130085130084129085128086128087128087129086131085136085137085136085135086133086134087136088136085140084140084138084137085137086136087137087140085140084140084140084138086137087137087140087141087141085142084140084140085140087140087141087142086143085143085142084140085140087141087142086143086144085144085143085142087141087142086143087144087146085147085146084144085144087145087146087147087148084147085147085146087146087146087147087148086149084149084147085147087146087147087148086149086150084149084149084147087148087148086149086149085152084153084151085151085150086150087152086152086155085155085152084153085152086152088154087155087163086162085162085161086159087159087160088162087164086165086164086162087163088162088163087165087168085167085166084166085166086166087166087167087170085170085167085166085166087166087167087170087170085171085170085167087168087167087170087171087171085172085171085170087170087170087171088171087171085173085172085171087170087171088171088172085179085179085178086175085177087175087176086178085180084181085180085179085179086178088178086180085184084183084182084182085181086181087183088183085185085185084183084182085182087183088183088185085186085186085185084183085184088183088185088185085187085187085186085185085185088185088185088186085189085189085188085187085187088186088187087189086190086190085189085188085188088187087189086190087191085189086190085189085189087189086190088191087192085191085190085189087191088191087192087193)))
 (.node 2 (.node 1 (.leaf 87193086193085191085190086190087192087193088193087195085196086193086193087193088193087193087194087196086196085196086193087193087193087194087195087198086199086198086196087196087195087196088197087202086201085201086199087199087198087199087202087204086204084202085201085202087203087204088205086207085205084205086204087204088205088206088206087208085206085205084205087205088206088206087208086212084211086209085208087208088209088210088211086213085213084211086209087210088210088211088213085221085219000000000000000000086217086220086220086223085223085222085219085221086220087222088222086224085224085223085222085221087222088222086223086228085228084227086225086224088226088226088227000000000000000000086228085229088227087228000000000000000000000000000000000000000000000000000000000000000000000000000000000000000000000000000000000000000000000000000000000000000000000000000000000000000000000000000000000000000000000000000000000000000000000000000000000000000000000000000000000000000000000000000000000000000000000000000000000000000000000000000000000000000000000000000000000000000000000000000000000000000000000000000000000000000000000000000000000000000000000000000000000000000000000000000000000000000000000000000000000000000000000000000000000000000000000000000000000000000000000000000000000000000000000000000000000000000000000000000000000000000000000000000000000000085355000000000000000000000000000000000000087357085356085355000000000000000000000000000000085357085357085356085355000000000000000000087357085359085358085357085356087357000000087357087358)
 (.leaf 86361085359085358085357085357087357087358088360085360085360085359085358085359087358088360086361085364085363085362085361086361086361086362087365087369085370084367084367086366086367086367088369085373085371086370086370086369088370088371087371086374085372085371086370087370088371087371087372085374085375085372085371085373087371087372087373085376085376084376085376085374087374088377088377086379084377085376084376086375088377088377088378085379084379084377085376085376088377088378088378086382085382084381084379085379088378088380088381087382085383085382084381085381088380088381088382086386085386085385084384087382088383088384087386086387084386085386085385086383088384087386088386086395084395085394085393087393087393087394088394087400086400085400086398087398087397087400088400085404084405085403086402086402087402086403087404086407084406084405085403086403086403087404087407085407085406084406084405085404087404087407088406087411086412085411085408086408087408087409088411086413086413086412085411086409087409088411087413087415086416085415086413087414087414088414088414086419086418085418085417087416088416088417088419000000086422086421086419087420088419000000000000087429085428085427086427086426000000000000000000087430085429085428085427087428000000000000000000000000085431086430085429087430000000000000000000000000086433085431086430000000000000000000000000000000000000000000086434000000000000000000000000000000000000000000000000000000000000000000087436085442085441085440085439086439087439087440087443085445085445085444085443086443086444086444087445))
 (.node 1 (.leaf 85447085446085445085444085444086444087445087446086450085450085447085446085447087446087449087450087451086451085450085447086447087449087450087451087456086456086455085454087454088454088455088456087472085472086471085470086470087470087471087472000000085478086475085474086474088475088475088477087479085478086477085478000000088477088478088479087480085481085478086477087478088478088479088480087481086481085481085478087479088479088480088481087482086483085483086481087481088481088481087482085488084487084487086485086485088486088487088487000000084488084487084487086486088487088487086489087491085490084489084488000000086489086489088492087494085493085492085491086491088492087492088494087494086495085493085492086492087492088494088494087498085497085496085495086495087495087496087497087501085501085500085499086499088500088500087501087507086507085506086504086503087503087506088507086521086520086518086518086517087517087518086521087525086525084525086523087523000000087523087524087526084527084526086525087525087524087525087526087530084529085527084527087526087526087529087530086531084529084529085527086527087529087530087531087532084531084529084529087530087530087531088531086534085534084532084531087532088531088532088533086535000000085534084532087532088532088533088533087538085537085536085535086535087535086536087537087538085538085537085536086536086536087537087538087540085539085538085537087538087537087538087539087540086542085539085538087538087538087539087540087542086542086542085539087540087539087540087541086545084544085544086542087542087541088543088543)
 (.leaf 86546084544084544085544085543088543088543088544085548000000084547085545000000086546087548087549087550084549085548000000085548087549087550000000087550084551084549085548086548087550000000087550085552085551084551084549087550000000087550087551087555085555086554085553086553087555088556088557086558085556085555086554086554088556088557087558087558086558085556085555087555088557087558088559087561084562084560086558086558088559088560088561086563085563084562084560086559088560088561087561086564084563085563084562087561088561087561088562087567084567084566084565085565087566088566000000087568085567084567084566085565088566000000088568085569085568085567084567087567000000088568088569087570084570085568085567087568088568088569000000087571085570084570085568085569088569000000088571087573085571085570084570087570000000088571087573086574086574085571085570087571088571087573000000000000086575086574085571087573087573000000088574086578086578085577086575000000087576088577088577086579085579086578085577087576088577088577088578086582084582085581086579085580088579088580088580087585084585084584086583087583087584000000087584086587084586084585084584087584000000087584086586086590085590085589085588000000086587087589087590000000084595084595084594085594086594086596086596085598084597085596084595000000086596086596088598086601085599085598084597085598088598088599087601086602085602085599085598086598088599087601087602086612085610085609085608086608087608087609087612087612086612085610085609086609087609087612088613087619086619085618086615086615088616088617087619))))
 (.node 4 (.node 2 (.node 1 (.leaf 86620086619086619085618086616088617087619086619085623085623085622085621085621087619087620088621085624085624085623085622085622087620088621087624086625084624085624085623085623088621087624086624000000085637085636086634086633087635000000000000000000000000085637085636086634000000000000000000086645000000000000000000000000000000000000000000000000000000000000000000000000000000000000000000000000000000000000000000000000000000000000000000000000000000000000000000000000000000000000000000000000000000000000000000000000000000000000000000088116086118087115085114087114088114088115088116087119086119086118087115087115088115088116088117087120087119086119086118088116088116088117088118086123086123087122087121088121088121088122088125086125086124086123087122087122088122088125087125086133086132086131085130086131087131088133088134086134086133086132086131086132088133088134088135087136085136086133086132086133088134088135088136088136085136085136086133086134088135088136087137087140085140086137085137086136087137088139088140087141085140085140086137087137088139088140088141087145085144086144086143086143088143087144087145087152085152085150086150086149087149087149088152086152085152085152085150086150087149088152087152087155086155086154085152086152087152088154088155087156086156086155086154088154088154088155088156088162087163086160086159087159088159088162089163088163087163087163086160087160088162089163089163087171087170087170087168087167089168088170088171088173086172087171087171088171089172089173088174088174086175086172087171088172089173088174089174)
 (.leaf 88174086176086175086172088173088174089174088174086178085179086178085177087175089176089177089177088178085179085179086178087176089177089177088178086180085180085179085179086178089177088178089180086181085181085180085179088178088178089180088180087183085182085181085180086180089180088180088183088183085184085182085181086181088180088183088184088185085186085185085184088183088184089184089186088186085187085186085185088185089184089186089186088187085188085187085186088185089186089186088188087189085189085188085187088186089186088188088189086190086190085189085188088187088188088189088190087192086190087191086190086190088190088191088192087202087202087199087199087198088198088199088200087203085202087202087199087199088199088200088203087208087208086207087205088206088206089207088208088208087208087208086207088206089207088208089208088210087210087208087208088208089208088210088211088213086213086212087210088210088211088212088213087214086214086213086212088211088212088213087213086216000000086217086216086215087214088215089216086217000000000000086217087215088215089216087218086220085221086218000000086217087218088220089220087222085221085221086218086220088220089220088222088222086223085221085221086220089220088222089222087225087224086224086223088222089222089222089225088227086228086227086224088226089226088227089227088227085229086228086227088226088227089227089227000000000000086230085229088227089227088230000000000000000000000000086230087228088230000000000000000000000000000000000000000000000000000000000000000000000000000000000000000000000000000000000000))
 (.node 1 (.leaf 87357000000000000000000000000000000000000088360086361085359085357087357088357088358088359086361085360086361085359087358088358088359087361086362085362086361085360086361087361088361088362086365086364085364085362086362088362087363087366086367086367086366085365086366087366087366087368088377086375085374085374087373088375089376089377088377085376086375085374087374089376089377089378088378086379085376086375088377089377089378089379088378085379086379085376088377089378089379089379088380085381085379086379088378089379089379089381088381086382085381085379088378089379089381089381088382087382086382085381088380089381089381089383088384086383087382087382088382089383089384088385087386086386086383087382088383089384088385000000088386086387086386086383088384088385000000000000087389086389086388086387088386000000000000087389086396086397086396086395088394088395088396088397088400087400086400087398087397088399088400089400087407086407085404086403086403087403088404088405088406085407086407085404087404088404088405088406088411087411086409086408087408088408088409088410087414087414086413087411088411088410089413088414)
 (.leaf 88419086419087418087416088416089416089417089418000000086421087420086419088419089418000000000000000000000000000000086421000000000000000000000000000000000000000000000000000000000000000000000000000000086424000000000000000000000000000000000000000000086425086424000000000000000000000000000000000000086426086425086424000000000000000000000000000000087428086426086425000000000000000000088427000000000000000000087430000000000000000000000000000000000000000000000000000000000000000000088435087443085442086440086439087439088439088442087442086444085444086443086442086443087443088443088446087449086447085447085445087445088447088448089449087450086450086447085447087446088448089449088450000000087457087456086455088455000000000000000000088474086473087472087472087471087471089472000000088475086474086473087472087472089472000000088474088475086477086474086473088474000000088474088475088477000000086477086474088475088474088475089478088478087478000000086477088475088475089478089479088485086484086483087482087482087483088483088484088486086485086484086483087483088483088484088485088487086486086485086484088485088484088485088486088487085488086486086485088486088485088486088487086489000000085488086486088487088486088487088488086489086489000000085488088487088487088488088489088492087491086489000000086489088488088489088492088494087494086492086491088492000000088492089494088500086499086498087498087497089498089499089499088500086500086499086498087498089499089499088500087506086506086503086502087502087502088503088506088507087507086506086503087503088503088506088507)))
 (.node 2 (.node 1 (.leaf 86514086513086512086511086512087511087512087514087522000000086521086518087518087519088519087521087529086527087526087526087525087526088528089528087530087530086527087526087526088528089528088530088533086535086534087532088532088531088532088533086536086536086535085534087534088534088535088536088543086545085543087542087541088543000000088543088544086546086545085543088543000000088543088544086546000000086546086545088543088543088544088545087548085546000000086546088544088544088545089546087549085548085546000000086546088545089546089548086553086552085552087550087550088550087551088554087555086553086552085552087551087551088554000000088556086554086553086552086553088554000000088556087558086558087555086554088556088556088557088558088559087558086558087555088557088557088558000000088560086559086558087558088559000000088558088559088561087561086559086558088559088558088559089561088562086564086563087561088561089561089562089563087565086565086564086563087561089562089563089565087566085565086565086564088562089563089565089565000000087570085569087568088568088569000000088571000000086574087573087571088571000000088573088574087576000000000000086574000000088574089574089575088577087576000000000000088574089574089575088577088578086579086578087576088577088577000000088579088579085580086579086578088577000000088579089580088580086581085580086579088578088579089580089580088580086582086581085580088579089580089580089581088582000000086582086581088580089580089581089582087584087583000000086582088580089581089582089582086587000000086587087585087584000000088585000000)
 (.leaf 87589086589000000086587086586088585000000088587087590086590086589000000086587000000088587087589086592085593086592086591086590087590087592089593086594085594085593085593086592089593089593089595086596085595085594085593086593089593089595088596086596000000085595085594086594089595088596000000086596085596000000085595086596088596000000088596088598085598085596000000086596000000088596088597088599086598085598085596086596088596088597088598087601086601086598085598088598088597088598088601087602086602086601086598088599088598088601089602087606086606086605086604088604088604089605088606087607086607086606086605088604089605088606088607087612086612086609086608087608089609089610088612088613087612086612086609087609089610088612088613088614086613086612087612088613088613088614088615088615086614086613086612087612088614088615088616088616086615086614086613088614088615088616088617088617086616086615086614088615088616088617088618087619087619086616086615088616088617088618087618088621085623085622085621087619088619087620088621087624085624085623085622087620087620088621088624086624086625085624085623088621088621088624088625087627085626086626086625086624088625088626088627086627086628085626086626086625088626088627087627088628086628085628086628086627087627088627088628088630086630086629086628088628088628088629088630088631086631086630086629087629088629088630088631086633086632086631086630088630088630088631089634087635086633086632086631088631088631089634000000000000086634086633086632086633089634000000000000000000000000000000086634000000000000000000000000))
 (.node 1 (.leaf 86645000000000000000000000000000000000000000000000000086645000000000000000000000000000000000000000000000000000000000000000000000000000000000000000000000000000000000000000000000000000000087114087113087112000000000000000000089114088114088125086123087122088121088121090121089124088124087129087128087127087126088126088127089127089128087130087129087128087127087128089127089128089129087131086131087129087128087129089128089129089130088133086132086131087129087130089129089130089131088134086133086132086131087131089130089131088133088140087140087137086136087137088137088139088140087147087147087146087145087145088144088144088147087148087148087147087146087145088144088147088147087149086149086149087148087148088147088149088149088152087152086150086149087149088149089151088152087152086152087152086150087149089151088152089153088155087155088154086152087152089153089154089155088162087160087159087158089159090159089159089162089163088162087160087159088159089159089162090163087166086166086166087165088163089163090165089167089168087167087166086166087166089167089168090168088170087170087167087166088166089168090168090169088171087171087170087167089168090168090169089171089176087175088174088174089174090174089174090176089177087176087175088174088174089174090176090177089177086178087176087175089176090176090177089177089180086180088178086178089177089177090180090180088183087183086181086180089180090180090180090182088184088183087183086181088180090180090182089184089195087194087193088193089194090194090195090195089196087195087194087193089194090195090195090195)
 (.leaf 89196087196087195087194089195090195090195089196088203087203087202087199088199089199089200089201088204087204087203087202088200089200089201089204089208088208087208088206089207089207089208088209089216086216087215086215087214089216088215090216087218086217086216087215088215088215090216090218088220086220086217086216089216090216090218089220089220086220086220086217087218090218089220090220089222088222087222086220089220090220089222090222089225087225086223088222089222090222089222089225089226088226087225086223089222089222089225090226088227088226088226087225089225089225090226000000088230087228088227088227089227000000000000000000000000000000087228088227089227000000000000000000000000000000000000000000000000000000000000000000000000000000000000000000000000000000000000089232000000000000000000000000000000000000089232089235000000000000000000000000000000089232089235089236000000000000000000000000000000089235089236000000000000000000000000000000000000089236000000000000000000000000000000000000000000000000000000000000000000000000000000000000000000000000000000000000000000000000000000000000000000000000000000000000000000000000000000000000000000000000000000000000000000000000000000000000000000000000000000000000087363087365086362086361088361090361090362089363087366086365087365086362088362090362089363089364087366086366086365087365087363089363089364088366087368086367086367086366087366088366089368088368088375087373087372087371089371089371088372089375089376087374087373087372088372088372089375089376089378088377088377087374089376089376089377089378))))))
 (.node 16 (.node 8 (.node 4 (.node 2 (.node 1 (.leaf 89381088380088378088378089379089379089380089381087389087389087388088386000000000000000000000000088390087390087389087388000000000000000000000000089391088391087390087389087389000000000000089391088395088394087394087393089392089393089394089395088400087400087397088397089398090397089399089400089401087401087400088400089400090400090401089401089408087407088406087407088405090406090406090408088414087414087413088411088410090412090412089414088415088414087414087413089413090412089414089415000000088419088419088417089417089418089419000000000000000000000000088419000000000000000000000000000000000000000000000000000000000000000000000000000000000000000000000000000000000000000000089426000000000000000000000000000000089426089429000000000000000000000000000000088427089429000000000000087438086438087437087436088436088436088437090438088442087440087439086438087438090438089439089440087442087443087440087439088439089439089440089441088446086444086444086443087443088443089445088445088451087451087450087449089449089449089450089451089466087466000000000000000000000000089465089466087468087468087467087466089466089466089467089468087469087469087468087467088467089467089468089469087471087470087469087468087468089468089469089470087471087471087470087469087469089469089470089471089472087472087471087470087471089470089471089472000000088474087472087471087471089471089472089473089478088477088475088475088474088475089477089478087483087482088481088481089480089480089481089482088492088492086489086489088488089488089489089490000000088492088492086489088489089489089490000000)
 (.leaf 89494088494087492088492000000000000089492089493089498087497087496087495088495089495090497090497089499087498087497087496088496090497090497089498089499088500087498087497089498090497089498090499087502087502087501088500088500090500090501090502088506087506087503087502087502090502090503090505088507088507087506087503088503090503090505089507087511086512086511087509088509089509088510089511087512086513086512086511087510088510089511089512087514086514086513086512087511089511089512089513087515086516086515086514087514089513088514089515087523000000086522087522087521088520090523090523087523087523000000086522088521090523090523088524087526087525087524087523087523088524090525090526088528087526087525087524088524090525090526090527089528087529087526087525087526090526090527090528088531087531087530087529089528090528089530088531088542087540087539087538088538090539090540090541088543087541087540087539088539090540090541088543089546087548086546088544088544088544089545089546089548087549087548086546088545089545089546000000087549087550087549087548089546089546000000089548087550000000087550087549089548000000089548089549087551087551087550000000087550089549090552090552088554086553087551087550088550090552090552090552000000087555086553087551087551090552090552090553088557088557088556087555000000090553089556000000089565087565088562087561089562000000089562000000089565087566087565088562089563089562000000000000088567088566087566087565089565000000000000089565000000088571000000088569000000090569089571089572088574000000087573088571000000089572000000089574))
 (.node 1 (.leaf 88577088577087576088574089574000000000000089577000000088577088577087576089575000000089577089578089582088582088580088580089580000000089580089581088585000000087584088582089582089581089582088585000000087584000000087584089582089582088585000000000000086587086586087584000000000000089585089586087589087590087589086587000000089586088587089590087590086590087590087589088587088587089590089591087592086592086590087590087589089590089591089592089593086592086592086590087590089591089592089593089593086593086592086592087592089592089593000000089595086594086593086592089593089593000000089595088596086596086594086593089593000000089595088596000000086596086596086594089595089595088596088596088604088604087603087602089602089602090603089604088607087607087606088604089605089605089606088607089610087609087608087607089609089609089610088611088612087612087609087608089609089610088611088611087620087620087619086619087619088619088619089622088624087624088621087620087620089622089623088624088625086624087624088621088621089623088624089625089634086633088631088630088630088630089633000000000000087635086633088631088631089633000000000000000000000000087635086633089634000000000000000000000000000000000000087635000000000000000000000000000000000000000000000000000000000000000000000000000000000000000000000000000000000000000000000000000000000000000000000000000000000000000000000000000000000000000000000000000000000000000000000000089114088112000000000000000000000000000000089114088114087114088112000000000000000000089114090113088115088115088114087114088114090113090114090117)
 (.leaf 88117088116088115088114089114090114090117089117088118088118088117088116088117089117090117089119088121088120088119088118088118089119090119090120090121088121088120088119088119090119090120090121089124088122088121088120088121090120090121090124088124088125088122088121090121090121090124090125088126087125087125088125088124090125090126089126088135088135088134088133089131089132089132089134088137087137088136088135088135089134090134089136088139088139087137087137088137089136090136090137088141088141088140088139088139090137089138090141089142088142088141088140088140089138090141089142088142088143088142088141088141090141089142090143088147087147087145087145088144090143090146089146088149087148087148087147088147089146089148089148088152088152087149087149088149089149089151090152089154088154087152088152088152090152090153091154089162088162088159089159090159090158091159090162090163089163088162088159089159091159090162090163090165088164088163089163090163091163090163091166089167087166088164088163089163090163091166091166089168088166087166088164090165091166091166090168089171088171088170089168090168090169091170090171089172089172088171088170090169091170090171089172090176089176088174089174090174091175091175091175090180088178089177089177090177090176090177090180090180089180088178089177089177090177090180091180090182088183088180089180090180091180091182091182089184088184088183088180090180091182091182090184089185089184088184088183090182091182090184089185088189088190088189088188088188090186090187091188088191088191088190088189088188090187091188090191)))
 (.node 2 (.node 1 (.leaf 88191088192088191088190088189091188090191090192089193088193088192088191088191090191090192091193090194089194088193088192088191090192091193090194088197088197089196089196090195091195090196089198089204088204088203088200089200090200090203091203089205088205088204088203089201090203091203091204088211088211088210089208088209089208090210089211089212088212088211088210088209090210089211089211089216087214087214087213088213089213090213089215090218087218089216088215088215091216091217090217089220088220087218089216090216091217090217090220090220089220088220087218090218090217090220091220090222089222088222089220090220091220091221091222089225089225089222089222090222091222091223090225090226089226089225089222089222091223090225000000000000088230089227089227000000000000000000000000000000000000088230089227000000000000000000091231000000000000000000088230000000000000091231000000000000000000000000000000000000091231000000000000089235000000000000000000000000000000000000000000089236000000000000000000089232000000000000000000000000000000000000000000000000000000000000000000000000000000000000000000000000000000000000000000000000000000000000000000000000000000000000000000000000000000000000000000000000000000000000000000000000088357000000000000000000000000000000089358090359088359088358088357000000089358089358090359090361088361087361088359090359090359090360090361090362088362088361087361089360090360090361091362088366087366087366087363089363090363090364090365088368087368087366087366088366090365089366091369088372088372089371088370089370089371090371091372)
 (.leaf 89375088375088372089371089371090371091372090375089376089376088375088372088372091372090375089375000000000000000000088385000000000000000000000000000000087389000000000000000000000000000000000000000000088390087389000000000000000000000000000000089391089391088390087389000000000000000000000000089392088392089391088390000000000000000000090392088403087403088402089401089401090403090404090405090405088404087403088402089402090404090405091405090406088405088404087403088403090405091405091407090406088406088405088404090405091405091407091408090408089408088406088405090406091407091408091408090410088409088408089408090408091408091410091411090412088410088409088408090410091410091411090412090412089413088410088409090410091411090412090413089414088414089413088410090412090412090413090414000000000000000000000000000000000000000000000000000000000000000000000000000000000000000000000000089429088427000000000000000000000000000000000000000000000000088427000000089426000000000000000000000000000000000000000000000000000000000000000000000000000000000000000000000000000000000000000000000000000000000000000000000000000000000000000000000000000000000000000000000000000000000000000000088437087437088436088435089435089435089436090437090438087438087437088436088436089436090437090438089445088443087443087442089441089442090442090445088445088446088443087443088443090442090445089445090448088448088447088446088445089445090447090448089449089449088448088447088447090447090448090449089450088450089449088448090448090448090449090450088475088474000000089472089472089472090473090474))
 (.node 1 (.leaf 89477088475088474000000089473090473090474090477089478089478088475088474088475090474090477090478088487088487088486088485089485090485090486090487000000000000088492088489089489089489090490090491090497088496088495088494089494089495089495090496090497089498088496088495089495089495090496090497090500088500089499089499089498090498090499090500090501088501088500089499090499090499090500090501090502087502088501088500090500090500090501090502090503088503087502088501090501090501090502090503090505088506088503087502090502090502090503090504089507088507088506088503090503090503090504090505089508000000088507088506090505090504090505089508088514087514087514087512089512090512089513089516088518087519088517087516088516089516090517091519088519088519087519088517089517090517091519090521088520087521088519087519088518091519090521089522090523088521087521088519088519090521089522000000088524087523087523088521090523000000090524090525090525088524087523087523090523090524090525000000090526087526088524087523088524090525000000090525090527088528087526088524090525000000090525090526090528089528088528087526090526090525090526090527088531088531088530089528090528090527090528089530090537088537088536088535089535090535000000090537090539088538088537088536089536000000090537000000090540088539088538088537090537090537000000000000090541088542088539088538090539000000000000090540088543088543088542088539090540000000090540000000088543000000088543088542090541090540000000000000088543088543000000088543088543000000000000090543088544088544088543000000088543000000090543000000)
 (.leaf 89548089546088545089545090545091547091547090552088550087550087549089548090548091550090552090552087551088550087550089549091550090552000000090552088554087551088550090552090552000000090552090553000000088554087551090552000000090552090553089556088556000000088554090552090552090553090554000000088557088556000000090553090553090554091555089559000000088558088557000000091555090556000000000000088558000000088558088558090556000000090560000000089561088559088558000000090560090561091562089568089567088567089565000000090566090567000000089571088571000000088569090568090567090568090571089572000000088571000000090569090568090571090572000000089574088574088573000000000000090574000000089578000000088577089575000000090576000000000000000000089580089580088579000000090579000000000000088585088585089582089582089581000000090582090583000000000000088585089582089582090582090583090584088587088587000000088585089585000000091587091587089590087589088587000000089586091587091587090590089591087590087589088587088587091587090590090591088600088598088597088596088596089597091598090600089601088601088598088597088597091598090600091600089602089602088601088598088600090600091600091602089605089605088604088603090603091603090604090605089616088616088615088614089612089613089613090614089619087618088618088617088617089615090618090619088619087619087618088618088617090618090619089619089622087620088619087619088619089619090621089621089631088629088628088627088628090627090628089631088630088630088629088628089628090628089631090632000000089634088631088630088630090632000000000000))))
 (.node 4 (.node 2 (.node 1 (.leaf 90643000000000000000000000000000000000000090643000000000000000000000000000000000000000000000000000000000000000000000000000000000000000000000000000000000000000000000000000000000000000000000000000000000000000000000000000000000000000000000000091111089114089114000000000000000000000000091111090113090117088115089114088114090113091113091114091115089117088117088115089114090114091114091115090117089119088118089117088117089117090117091117091118090124089124090121088121090120092121090121092123090125088124089124090121090121090121092123091125089128089127088127088126089126091125091126091127090130089128089127088127091127091126091127091128089130089129089128089127089128091127091128091131089132089131089130089129089130091131090132090132089134088135088133089131089132090132092133092134089136088137088135088135089134092134092135091135089138088140088139088137090136092136092138090139089142089142088141088140089138090139091141090142090146088144088144089144089143091144090143091144089146088147088144088144090143090143091144091147089149088149088149088147089148090147090147091150089151089151088149088149089148090147091150090151090152088152089151088149089149091150090151090152090156089156089155089154091154091154091155090156090162089162089159090159090158091160092161092161090163090163089162089159091159092161092161091163091166090165089163090163091163092164092164091166090168089168089167090165091166091166092166090168090169090168089168089167091166092166090168092169089172089172089171090169091170091170091171090172)
 (.leaf 91175090176089174090174091175091175091176092177090180090180089177090177090176092177091177092180091180090180090180089177090177091177092180092180091182090182090180090180091180092180091182091183089185089185089184090182091182091183090184091185089187089187089186089185089185091185090186090186091188088189088188088188090186091186091187091188090191088191088189088188090187091187091188092189090192088191088191088189091188091188092189092191091195090195090194089193091193091193091194091195089198088197089196090195091195091195091196091197089198089198088197089196090196091196091197090199091203089204089201089200090200090201090203091204091205089206089205089204091203091204091205092206089207089207089206089205091204091205092206092206091207089208089207089206091205092206092206091208089208088209089208089207089207092206091208090209090210088209088209089208091207091208090209090209090213088212089212088211089211090210091210090213089213088213088212089212089211091210090213090213089215089216088214088213089213090213090213092215091216088215089216088214090213090213092215091215091220090220089220090218090217091219092220092220091222090222089222090220091220092220092221000000090225089225089222090222091222000000000000000000000000090226089225089222091223000000000000000000000000000000000000000000000000000000000000092228000000000000000000000000000000000000092228091230091231000000000000000000000000092228091230000000000000000000000000000000000000091230000000000000000000000000000000000000091231000000000000000000000000089232000000000000000000000000000000000000))
 (.node 1 (.leaf 89235089232000000000000000000000000000000000000089236089235089232000000000000000000000000000000000000089236089235000000000000000000000000000000000000000000089236000000000000000000000000000000000000000000000000000000000000000000000000000000000000000000000000000000000000000000000000089366089368088366089364090364091364092365091366091369088368089368088366090365092365091366091369091369090369088368089368089366091366091369092369089371089370090369090369091369092369091369091372091372088372089371089370089371091372092371092372090375089375088372089371090371092371092372091375089375089376089375088372091372092372091375090376089378089379089378089377089377000000000000000000089380089380089379089378089377000000000000000000089380089381089380089379089378000000000000092380089382089382089381089380089380000000092380090381000000000000000000000000000000000000000000000000000000000000000000000000000000000000000000000000000000000000000000000000000000000000000000000000000000089391000000000000000000000000000000000000090392089392089391000000000000000000000000091390089395089395089394089393089393090391091392090394089396089397089396089395089395090394090396090396091408090408090406090406091407092406092407092409091411090410090410090408091408092409092410092411090413090412090412090410091411092411091412091413000000089419089418089417089416090415000000000000000000000000000000089419000000000000000000000000000000089426000000000000000000000000000000000000000000089429089426000000000000000000000000000000000000000000089429089426000000000000000000000000)
 (.leaf 89429000000000000000000000000000000000000000000000000000000000000000000000000000000000000000000000000000000000000000000000000000000089434000000000000000000000000000000000000089435089435089434000000000000000000000000000000089436088436089435089434000000000000000000000000089445088445089445088443090442090443090443091446090448090448088447088445089445091446091447090448000000000000000000000000000000000000000000000000000000000000000000000000000000000000000000092462089463000000000000000000000000000000092462092463089464000000000000000000000000092462092463091465090467089465000000000000089464091465091466090466089472089472089471089470090470090470090471092474090477089477088475089473090473092474091476091477090478089478089477088475090474091476091477091478089489089489089488088487090487091487091488091489089494089493089492000000090491090491091492091493089495089494089493089492090492091492091493090495089508089508089507090505090504090504091505091506089508088507089508089507090505091505091506091507089516088514089513089512090512090513091513092515089516088516089515088514089516092515090515092517091519088518089517088516089516092517092518092519090521088519088518089517090517092518092519092519089522088520088519088518091519092519092519092521090524090523090523088520089522092521092522092522089532089532089531089530089530090531090531090533000000090539090537089536000000090536091537091538000000088544088543088543000000090542090545090545091547089546089545088544000000090545091547000000091547000000089546089545090545091547000000092549)))
 (.node 2 (.node 1 (.leaf 91550089549089548000000091547092549092549092550090552090552089549089548090548092549092550092550000000090552090552089549091550092550092550092551091555000000089556090553090553092554000000091555000000089559088558000000091555091555092557092558090560000000089559088558090556092557092558092559090561089559000000089559000000092558092559092560091563089562000000000000091562092561091563000000089564000000089562000000091562091563000000092564090566000000000000089562091563000000092564092565090567089565000000000000089564092564092565090567090572089572089571090569090568091570000000091572000000000000089574000000000000000000091574091575000000089577000000000000000000091575091576092577090579000000089578089577000000092577092578092578000000089580000000089578000000092578092578092578000000089581089580000000000000000000091580091583000000089585000000088585090583092584092585092586091587089586089585000000090584092585092586000000091587088587089586089585000000092586000000091587090590089590088587089586091587000000091587091588090591089591089590088587091587091587091588090591089597088596088596088596089594090595092596091596091598088597088596088596089596092596091596092599090600088600088597088596089597091596092599092600091600089601088600088597091598092599092600091601091603090603089602089601091600091601091602091603090604089604090603089602091602091602091603091604089608089609089608088607089607092606092607092608089609089610089609089608089607092607092608091610089609088611089610089609089608092608091610090611089613088613089612089611090611090612091612090614)
 (.leaf 90618088617088617089616090614090615090617091618090624088624089623089622089621092621092623091624089626088626089626089625089624090624091626090627089627089626088626089626090624091626090627090628089631089631089628088628090627091627091628091631090632088630089631089628090628091628091631000000000000089633088630089631089631091631000000000000000000000000000000089633000000000000000000000000000000000000000000000000090643090644091644000000000000000000000000000000000000000000000000000000000000000000000000000000000000000000000000000000090113089114000000000000000000000000092111092112090117089117090117090114091114092114092117091117092121090120090119089119091118093118093121093122090121090121090120090119091119093121093122092123092123090124090121090120092121093122092123092124091125090125090124090121090121092123092124091125090125090126090125090124092123092124091125092126091131089130090130089128091127092127092128093129090132090132089130090130091128092128093129093131092133089132089132090132090132093131092133092134092134089134089132089132090132092133092134092135092135090134089134089132092133092134092135093135092136090136089136090134092135093135092135092136092138090137090136089136091135092135092136093138090139089138090137090136092136092136093138092138091141090141089138090137092138093138092138093141090142089142090141089138090139092138093141093141091144089143090143089142090142093141092143091144090143090143089143090143090143092143091144091144091147089146090146090143090143091144091144092147090147089148089146090146091144091144092147091147))
 (.node 1 (.leaf 91150089149089148089148090147091147091149092150091153090153090152089151090151093151093152093152091154091154090153090152090152093152093152092154091158090158090157090156090156092156092157092158091163090163090162091159092161092161093161092161092164091163090163090162092161093161092161092164091166091166090163091163092164092164093164093165092166091166091166090163092164093164093165093166092169090169090168091166092166093166093167092169091170091170090169090168090168093167092169093170091171090171091170090169092169092169093170092171090174090174090173089172090172091171091171093174091175091175090174090173090172091171093174092175091176091175091175090174090174093174092175092176092180090180090177090176092177093177092177092180092180091180090180090177091177092177092180093180091183091182091182091180092180093180093180093182090186090186089185090184090184091183092185091186092189090191091188090187091187092187093188092191092191090192090191091188091188093188092191093191091193091193090192090191092189092191093191091193091194090194091193090192092191093191091193091193090199089198089198090196091196092196093199093199090199090199089198089198091197093199093199092201090201090200090199089198090199093199092201092202090203090203090200090199090199092201092202092203091204091203090203090200090201092202092203092204091208091207089207091205092206092206091207092206090210089211090210089208090209092207092208092209090213090213089211089211090210092209093212092213090213089213090213089211091210093212092213091213092215089215090213089213090213091213092215093215)
 (.leaf 90225091223000000000000000000000000092228000000000000000000000000000000000000000000091230000000000000000000000000000000000000000000000000091231000000000000092228000000000000000000000000000000000000000000000000000000000000000000000000000000000000000000000000000000000000000000000000000000000000000000000000000000000000000000000000000000000000000000000000000000000000000000000000000000000000000000000000000000000000000000000000000000000000000000000000000000000000000000090357089358000000000000000000000000000000092357090358089358089358000000000000000000092357092358092365090365090364090363091363092363092364093366091369091369089366090365092365093366093366093368092369091369091369089366091366093366093368093369091372089371090369091369092369093369092369092370092371090371089371090369091369092369092370092371091375090375091372090371092371092371092374000000090376089375090375091372092372092374000000000000000000089377089377089375090376000000000000000000000000089378089377089377000000000000000000000000000000089380089378089377000000000000000000000000092380089380089380089378000000000000000000000000090381089382089380089380000000000000000000092380090382090383089382089380092380000000092380092381090384090384090383089382090381092380092381092382000000000000090384090383090382092381092382093384000000000000000000090384090384092382093384092386000000000000000000000000000000093384092386000000000000000000000000000000000000000000000000000000090391089393090392000000000000000000000000092391090394089395090392089393090391092391093393093395)))))
 (.node 8 (.node 4 (.node 2 (.node 1 (.leaf 90396089396089395090392091392093393093395093395090396089396089396089395090394093395093395091396090398090399090398089396090396091396092398091398090400090401090400090399090398091398092400092401090402090403090402090401090400092401092402091402091405090405090404090403090402091402092402091405092405091405090405090404090403092402091405092406092407091408091407091405092405092406092407092408092411091411091410091408092409092409092410092411000000090418089416090416090415091415092417000000000000000000090418089416090415092417000000000000000000000000000000000000000000000000000000000000000000000000000000000000000000000000000000000000000000089436089435000000000000000000000000000000090439090438090437089436000000000000000000092438090439089439090438090437091437000000092438093439090441090440089439090438090439092438093439091441090443090442089442090440090441091441091443091443091446089445090445090442090443091443091445092446091450090450090449090448090448092448092449092450000000000000000000000000000000000000000000000000092462000000000000000000000000000000000000000000092463089463000000000000000000000000000000093463091465089464089463000000092462000000093463092463091466090464089464089463092463093463092463092466090469089468089467090467090466092467093468093468090470089469089468089467090468093468093468091469090471089472090470089469090470091470091470092473092474089472089472090470090470091470092473092474092474090473089472089472090471092473092474093475091476090474090473089472092474092474093475093475091477090477090474090473092474093475093475092477)
 (.leaf 90495089495089494090492091492091492092493092494090496089495089495089494091493092493092494093496090497090496089495089495090495092494093496093496090498090497090496089495090496093496093496091498090500090500090499090498000000091499091499092500090501090501090500090499091499091499092500092501090502090502090501090500090500092500092501092502090509090508089508089508091506091506092507092508090510089509090508089508091507092507092508092511090511089510089509090508090509092508092511092512091513090511089510089509090510092511092512091513090513090512090511089510090511092512091513092514092515089516089513090512090513092514091513092514090515089516089516089513091513091513092514092515092517089516089516089516092515092514092515092516092518090517089516089516090515092515092516092517092519091519090517089516092517092516092517092518092521089522090521091519092519092518092519092520092522000000089522090521092519092519092520092521092522090524000000089522092521092520092521092522090524090525090524000000092522092521092522092523090525000000090525090524092522092522092523092524090527090526090525000000090525092524092525092526091529090527090526090525091525092525092526092527090529090528090527090526090527092526092527091529090531089530089530090528090529091529091531091532090536000000090535090534090535091535093536091537090542000000000000090540090540091541091541000000090545090543000000000000090541091541000000092545090545000000090543000000090542000000092545000000091547090545000000090543090545092545000000092545000000091547090545000000090545000000092545092546))
 (.node 1 (.leaf 92549090548091547091547000000092546092549092550092550091550090548091547092549092549092550000000092551000000090552091550092550000000092550092551092552090552000000090552092550092550092551092552092554090553090552000000092551092551092552092555000000090554090553090552092552092552092555000000092557090556091555090554000000000000092555092558092558000000090556091555091555092555092558000000092559090560000000090556092557092558000000092558092560090561090560000000092558000000092558092559092561091562090561090560092559092558092559092560091563091562091562090561092560092559092560092561092565090566089564091563000000092562092565000000090567090567090566089564092564092565000000092565090567000000090567090566092565000000092565091567091570090568090567000000090567091567000000092568000000090571090568090567091567000000092568091571091575000000090574000000000000091572092574093575092578090579000000000000092577000000092578000000092578000000090579000000092578092578000000092578000000000000000000090579092578000000092578092581091583000000090580000000000000092581000000092583000000090582000000090580091580000000092583092584092585090584090583090582000000092584000000092586092586000000090584090583092584000000092586000000000000091587000000090584092585092586000000091587090591090591090590091587091587093589093589093589091592090592090591090590091588093589093589091592090592089593090592090591090591093589091592091592090594090593089593089593090592091592092592093593090595089594090593089593091592092592093593092596092596089596089594090593090594093593092596092597)
 (.leaf 92599091598089597089596092596092597093598092599091601091600090600091598092599092599092600091601092607089607089607090606092606092606093607093607092608089608089607089607092606093607093607093607091610089609089608089607092607093607093607092608090611089609089609089608092608093607092608091610090614089613089613090611090612091612091612092613090615090614089613089613091612091612092613092614090617089615090614089613090614092613092614092617091618090618089615090614090615092614092617091618090619090619090618089615090617092617091618092619090620090621089619090619090619092619093619092621092621089621090621089619091618093619092621091622092623090623089621090621090620092621091622091622090624089624090624090623092623091622093623092623090627089626090624089624090624092623091624091626091631089631090628090627091627092627092630000000000000090632089631090628091628092630000000000000000000000000000000090632000000000000000000000000090644090643000000000000000000000000093643092643000000000000000000090643090644092643092644091646000000000000000000000000000000091646091648093648000000000000000000000000000000000000000000000000000000000000000000000000000000000000000000000000000000000000000000000000000000000000000000000000000000000000000000000000000000000000000000000000091113091113090113091111092111093111092112093113092117091115091114091113091113093113093114000000091117090117091115091114092114093114000000093118093118091118091117090117091117093118000000093118093121091119091118091117093118000000093118000000093122092121091119091118093118093118000000093122)))
 (.node 2 (.node 1 (.leaf 92124092123090121092121093122093122000000092123093129091131091128091127092127092128093128093131093131090132091131091128092128093128093131094131092133090132090132091131093129093131094131094131092134092133090132090132093131094131094131094132093138092138092136091135092135093135092136093137093141091141090139092138093138093137093138094140093141090142091141090139092138093138094140093142092143090143090142091141093141094140093142093143091144091144090143090142093141093142093143092143091144091144090143091144091144092143093143093146092147091147091144090143091144093143093146092146092150091150090147090147091147092147092149093150093152091153090152090151093151093151093152093153092154091154091153090152093152093152093153092154091155091155091154091153093152093153092154092155092164092164091163092161093161093162094163094164093164092164092164091163092161094163094164094165093166092166091166092164093164094165094166094167092169092169090168092166093166094167094167094167093170091170092169090168093167094167094167094169091171090172091171091170093170094169094171094171093174090174090172090172091171094171094173094174092175091175090174090172091171094173094174094174092176091176091175090174093174094174094174094176092180092180091177092177093177094177094177093178093180092180092180091177092177094177093178093179093182091183091182092180093180093179094181094182091183090184091183091182093180094181094182094182092185091185090184091183093182094182094182093185091186090186091185090184091183094182093185092186093188091188091187091186092186093186093187094189)
 (.leaf 93191092191092189091188093188094189094189093192092195091195091194091193091193092192093192094195093195092195091195091194091193093192094195094195093199091197091196091195092195093195094196093197093199090199091197091196092196094196093197094200092201090199090199091197093199093197094200093201092202090201090199090199093199094200093201092202093212091210090210090209092208093208094211093212092213090213091210090210092209094211093212094212091213090213090213091210093212093212094212093212093215092215090213090213091213093212094214094214093216091218091215092215093215094214094216093218092219091219091218091215093216094216093218000000000000092220091219091218093216093218000000000000000000000000000000092221000000000000000000000000000000092228000000000000000000000000000000000000000000000000091230092228000000000000000000000000000000000000000000091230000000000000000000000000000000000000000000000000000000000000000000000000000000000000000000000000000000000000000000000000000000000000000000000000000000000000000000000000000000000000000000000000000000000000093342094344000000000000000000000000000000093342094344092345000000000000000000000000000000092345000000000000000000000000000000000000000000000000000000093347000000000000000000000000000000000000093347000000000000000000000000000000000000093347000000000000000000000000000000000000000000000000000000000000091361091360091359090358092358093358092359093362091362091361091360091359091360092359093362092362093366091366092365091364092364093366000000000000093368091369091366092365093366000000000000000000))
 (.node 1 (.leaf 93369092369091369091366093366000000000000000000000000091375092372092371092371000000000000000000000000000000090376091375000000000000000000000000000000000000000000090376000000000000000000000000000000092380000000000000000000000000000000000000093384000000090384090382092381094382094382094384092386000000000000090384092382094382094384094384000000000000000000000000093384094384094384093387000000000000000000000000000000093387000000000000000000091390000000000000000000000000000000000000093393091392090391091390000000000000000000000000093395090394091392090391092391000000000000000000093395090396090394091392093393000000000000093394092398091396090396090396093395093394092395092397092401090400091400090398091398093397092398092400092406092405091405090403092402092403093403093404091414091415091414091413091412093411093414093415091415090415091415091414091413093414093415000000092417090415090415091415091414093415000000000000000000000000090415090415091415000000000000000000093439090439090439091437000000000000000000000000091441090441090439090439092438000000000000000000091443090442090441090439093439000000000000094442091443090443090442090441091441000000094442092443092446091446090443090443091443092443092443092446092447091447091446090443091445092443092446092447092466091466091465092463093463000000093463094464092467090466091466091465092463093463094464094465091469090470090469090468093468093468000000093468091470090470090470090469093468000000093468094471092473090471090470090470091470094471092470092473092474092474090471090470091470092470092473092474)
 (.leaf 92477091477091476092474093475093475000000093477091478091478091477091476093475000000093477092477091487091487091486091485091485092485092486092488091489091489091488091487091487092488092488092490093496090496090495091493092493092493092494093495093496090497090496090495092494092494093495093496091498090498090497090496093496093495093496094497091499000000090498090497093496093496094497093498091499091499000000090498091498094497093498092501091503090503090502090501092501092502092502093503091504090504090503090502092502092502093503092505091506091506091505090504091504092505093507092507092511090510090509091507092507092507093508093509092512090511090510090509092508093508093509092512091529090529091529090527092526093526093527093528091531090530090529091529092527093527093528092531091532090531090530090529091529093528092531092531091533090533090531090531091532092531092533092534091537090536090536090535091535093536094537094537091538091537090536090536093536094537094537093539091539091538091537090536091537094537093539094539091540090540091538091537091538093539094539094540091541090540090540091538091539094539094540094541091541090541090540090540091540094540094541094542000000090542090541090540091541094541094542094543092545090545090542090541091541094542094543094544000000090545090545090542000000094543094544094545092549092549000000091547092545094546094546093549092550092549092549000000092546094546093549092550092555092554092552092551092551093551094553094554092558092557091555000000000000092555092555093558092565092564000000091563092561000000093562093565))))
 (.node 4 (.node 2 (.node 1 (.leaf 91567090567090567092565000000000000000000094568000000091567090567090567092565000000094568094568091571000000091570091567000000094568000000093569091571091572000000091570092568000000093569094572091572000000091572000000091571093569094572094572092574091574000000091572091571094572094572093574093575091575091574000000091572094572093574093575000000092577091576091575093575093575000000093575092581000000092578092578000000092578093578092580092584000000091583091580000000093582093583000000093589091587000000092586000000000000000000000000093589091588091587000000091587000000000000000000093589090591091588091587093589000000000000093589091592091592090591091588093589000000093589093590091592090592091592090591093589093589093590093593093593090594091592090592091592093593000000093595092596090595090594091592092592000000093595093596092597092596090595090594093593093595093596093597092600092600092599091596093598093598093599093600092603091603091602091601091601093601093602093603091612091612090612090611091611092611092611093614092617090617090615090614092613092614093616092616093619091618090619091618091618093616093619094619091622092621090620091618093619094619093619094620093623091624092623092621091622094620093623000000091624091626090624091624093623000000000000093624091626090627091626090624092623000000093624094626091627090628090627091626091624093624094626094627092630091628091627090628091627094627000000000000000000091631091628091627092627000000000000000000093643000000000000000000000000000000000000093642091646000000091644090644092643092643093644094645)
 (.leaf 91648000000000000091644092644093644094645094646093648000000000000000000091646094645094646000000000000000000000000000000091648094646000000000000000000000000000000000000093648000000000000000000000000000000000000000000000000000000000000000000000000000000000000000000000000000000000000000000000000000000000000000000000000000000000000000000092112092112092111000000000000000000094111093113000000092117092114091113093113095113095116095116093118091117092117092114093114095116095116094116000000093118091117092117000000095116094116000000000000093121093118093118000000000000000000000000093122093122093121093118093118000000000000095121093125091125092124092123000000093122000000093124092126092126091126092126092125094124094125093127094131093131093129092128093128094128094129094130094132092134092133093131094131094130094131094132094134092135092134092133094131094131094132094133094134093135092135092134094132094132094133094134092136092136092135093135094134094134093135094136094140093141092138093138093137093137094140095139093142093141093141092138093138094140095139094140093146091144091144091144092143093143093143094146092146092147091144091144093143093143094146094147092149091149091147092147092146094147094148094149093150092150091149091147092147094148094149095150093151093151092150091149092149094149095150093150092156092157092156091155092155094155094156094157093158092158092157092156092155094156094157094158092158092159092158092157092156094157094158094159094161092161092160092159092158094159094160094161094165093164092164092161094163094163094164094165))
 (.node 1 (.leaf 94169093170092169093167094167095167095168094168094171092171093170092169094167095168094168094171094173091171091171092171094171094171095171095171094174093174091171091171094171095171095171095173094174092175093174091171094173095171095173095175093177092177092176092175094174095175095176094177094177093177092177092176094176095176094177094178094182093182093180093180093179095180095181094181093185092185091183093182094182094181095183094185092186091186092185091183094182095183094185093186094189092191093188092187093187093187094188094189093192093191092191093188094189094188094189094190094195092195091193091193092192093192095193095194094195093195092195091193093192095193095194095194094196092196092195093195094195095194095195095197094200093199093199092196094196095197095198094200092202092202092201093199094200094200094201093201092203092204092203092202092202093201094201094204092204092205092204092203092202094201094204093204092206091207092206092205092204093204094206093206094211092209092208092207093207095208095209095209093212093212092209092208093208095209095209094212094212092213093212092209094211095209094212095212094214092215091213092213094212095212094212095214094214093215092215091213093212094212095214094214000000092219093216093216094216094217094218000000000000000000000000092219000000000000000000000000000000000000000000000000000000000000000000000000094344000000000000000000000000000000094342095344092345000000000000000000093342094342095344093346000000000000000000000000094344095344093346095345000000000000000000000000000000094346095348095348)
 (.leaf 93347095348095348095350000000000000000000000000000000095348095350095351000000000000000000000000000000095350095351094353000000000000000000000000000000095351094353094354000000000000000000000000000000094353094354095355000000000000000000000000000000094354095355095356000000000000000000000000000000095355095356095356092357000000000000000000000000095356095356095356092357092357000000000000000000095356095356094357092359091360092358092357092357094357095358093361093362091361091360092358093358095358093361095362093366092364092363091362093362093363094365094366000000093368093366093366000000000000000000000000000000092370092369093369000000000000000000000000000000092371092370092369000000000000000000000000000000092374092371092370000000000000000000000000000000000000092374092371000000000000000000000000000000000000000000000000000000000000000000000000094382092381092380000000000000000000000000000000094382092382092381092380093380000000000000095383094384093384092382092381094382000000095383095385093387000000092386093384094384095385095385094387000000000000000000092386094384095385094387000000000000093393092391000000000000000000000000000000092397092398091396093395093394000000000000095398092398092400091398092398092397095398095398093399092401092402092401092400092398093399094401095401092403092402091402092402092401095401093401094404092407092407092406091405093403093403095405093407093408092408092407092406093404095405093407094406092411092412092411092410092409095409093411094412093414091413091412092412092411094412095413095413)))
 (.node 2 (.node 1 (.leaf 93415091414091413091412093411095413095413094415000000000000092417091415000000000000000000000000000000000000000000092417000000000000000000000000000000091441093439092438000000000000000000000000094442091443091441093439000000000000000000000000092443091443091443091441000000000000000000094442092443091445091443091443094442000000094442095443092446092446091445091443092443094442095443095444092447092447092446091445092443095443095444095445092448092448092447092446092446095444095445094446092448092449092448092447092447095445094446094449093452093452092451092450093448093449094451093451000000093463000000000000000000000000000000000000094464092466092463093463000000000000000000000000094465092467092466092463093463000000000000094465093468093468092467092466094464000000094465094468000000093468093468092467094465094465094468093468094471091470091469093468000000093468094468095471092470091470091470091469093468094468095471095472092473092473091470091470094471095471095472095473092474092474092473091470092470095472095473095473093475093475092474092473092473095473095473095474000000093475093475092474092474095473095474093475092477091478092477093475000000093475093477093477092483091483091482091482092482093482093482093484092485091485091484091483092483093484095485095485092486091486091485091484092484095485095485093487092492091491091491091489092490093490093492093492094497091498093496093496093495093495093496095498092501091499091499091498094497095498094498094499092501092500091499091499093498094498094499094502092502092501092500091499092501094499094502093502)
 (.leaf 92505091504091503092502092502093503094503093506093507092505091504091503093503094503093506093506092512092512092511092508093508093509093509094510092512091513092512092511093509093509094510094511092513092514091513092512092512094510094511095513092514091513092514091513092512094511095513095514092515092514091513092514092513095513095514095515092516092515092514091513092514095514095515095515093518092516092515092514092515095515095515094516092518092517092516092515092516095515094516093518092520092519092518092517092518093518094520094521094521092520092519092518093518094520094521094522093523092521092520092519092520094521094522093523093524092522092521092520094521094522093523093523092531091531091529092527093527095529094528094529092531091532091531091529093528094528094529094530092533091533091532091531092531094529094530095532092534091533091533091532092531094530095532094532092535091534091533091533092533095532094532094535093536091535091534091533092534094532094535094536094537093536091535091534092535094535094536094537093539091538091537093536094537094537094538000000094539091539091538091537094537094538000000094538094541091541091540091539094539094538094539094542094542091541091541091540094540094539094542000000094543000000091541091541094541094542000000094542094544092545000000091541094542000000094542000000094545000000092545000000094543094542000000094544094546092545000000092545094544000000094544094545094546092546092545000000094545094544094545094546093549092549092546092545094546094545094546094547092550092550092549092546094546094546094547095548))
 (.node 1 (.leaf 92550092550000000092550092550095548095550093551094553092552092551092550092550093551093551094554094554092555092552092551093551093551094554094555092555000000092555092552094553094554094555094556092555092555000000092555094554094555094556094557093558092558092555000000092555094556094557095557094559000000092558092555092555094557095557095558094559092559092558000000094559095558000000095560093562092560092559092558094559000000095560095561000000092561092560092559094559095560095561095562093565092565092562092561000000095562095562095564000000000000092565092562093562095562095564094566094568091567092565000000000000094566000000094566094568000000091567092565000000000000094566094569000000092568000000091567094568094566094569094570094572091571091571092568000000094570095570094572094572091572091571091571093569095570094572095572093574092574091572091571094572094572095572095573093575093575092574091572094572095572095573095573092578092578000000092576000000093575093575094576092578000000092578000000093575093575094576094579092580092581092578000000092578094579000000094581093582000000092581092578093578000000094581094582093583092583000000092581092580094581094582000000094585092586000000092584000000093583094585000000000000000000092586000000093583094585000000093586093593091592091592093589093589000000000000094591000000092592091592091592093590000000094591094592093606092606092605092604092604094604095605095606093607093607092606092605092605095605095606095606092609092608093607093607094607095607095607094608092611091611091610092608092609094608093609094612)
 (.leaf 92611091612091611091610092610093609094612094613093614091612091612091611092611094612094613093613092616092617092614092613092614093613094614094615093619092619091618092617092616094615094618094619094619093619092619091618093616094618094619094620094620091622092621093619094619094620095621000000093623091622091622092621093619095621000000000000000000093623091622091622094620000000000000000000094626091626091624092623000000000000000000000000094627091627091626091624093624000000000000000000000000092627091627091626094626000000000000000000000000092630092627091627094627000000000000000000000000000000092630092627000000000000000000000000000000000000000000092630000000000000000000000000000000000000000000000000000000000000000000000000000000000000000000000000000000000000000000000000094645091646092644092643092643094643094646094647094646091648091646092644093644094646094647000000000000093648091648091646094645094647000000000000000000000000000000093648000000000000000000000000000000000000000000000000000000000000000000000000000000000000000000000000000000000000000000000000000000000000000000000000000000000000000000000000095113093113092112093111094111094111094112095113095116093114093113092112093113094112095113096115095116000000093114093113095113095113096115095115000000000000093118000000095116095115095116096119000000093118000000093118094116095116096119096119000000000000093118000000000000096119096119094120093122000000093122000000000000094120000000095121000000092123000000093122095121000000095121094123093127092126092126092125094124094125095125095126)))))))
 (.node 32 (.node 16 (.node 8 (.node 4 (.node 2 (.node 1 (.leaf 93127092128092126092126094125095125095126094128093135093135094134094134094133096134096135096136093137093137092136093135093135096136095136095137094140093138093137092136094136095136095137096140095139094140093138093137093137095137096140096140094143093143093142094140095139096140096140096143093143092143093143093142094140096140096143095144094146093146093143092143093143095144095145094146094147092146093146093143093143095145094146094146095152093152093151093150095150095150095151096152093152093153093152093151093150095151096152095153093154092154093153093152095152096152095153095154094155092155092154093153093152095153095154094155094156092155092155092154093154095154094155094155095171094171094171094169094168096168096171096172095173094174094173094171095171096172096173095174094177093177094176094174095175096175096176095177095180093179093178094177095179095179096179095181095181094181093179093178095179096179095181096180094185093185094182094182094181095181096182095185093186092186093185094182095183096182095185094186093192092192093192094189094189095189094190095193095193093192092192093192094190094190095193096193095194094195093192092192093192095193096193095193095194094195094195093192095193096193095193095194095198093197094196093195095195095197095198095199094200094200093197094196095197095198095199094200094201093201094200093197095198095199094200094200094204092203092202092202093201094201096201094203093206092206092205092204093204095203095206096207095208093207092206092206093206096207096207095207095209093208093207092206093207096207095207095208)
 (.leaf 95209094211093208093207095208095207095208096209094212093212094211093208095209095208096209094211095214094214093212094212095212096212096213096214094217094216094214094214095214096214095214094216000000000000000000000000000000000000000000000000095344094344093342000000000000000000095342095343095345000000092345094344095344095343095344095347095348093347000000000000095345095347095348096348095348000000093347000000094346095348096348095348095350000000000000093347095348096348095348096350095351000000000000000000095348095348096350096350094353000000000000000000095350096350096350095351094354000000000000000000095351096350095351094354095356000000000000000000095355094354095356096357095356092357000000000000095356095356096357096357095358093358092357092357095356096357096358096359093361092359093358092357094357096358096359096360095362093362092359093358095358096359096360096361093362092362093362092359093361096360096361096361093363093362092362093362095362096361096361096362094365093365093362092362093362096361096362095365094366093366093365093362093363096362095365095366000000000000000000000000000000000000000000095379000000000000000000000000000000000000095379000000000000000000000000000000000000095379000000000000000000093380000000000000000000000000000000000000000000094382093380000000000000000000000000000000095385094384094382094382000000000000000000096384094387093387094384094384095385096384096384095385000000000000093387094384095385096384095385095388000000000000000000000000000000095388000000000000000000000000000000000000000000000000000000000000))
 (.node 1 (.leaf 93394000000000000000000000000000000000000000000092395093394000000000000000000000000000000095398092397092395093394000000000000000000000000095398093397092397092395000000000000000000096398093399092398093397092397095398000000096398096398094401092400092398093397095398096398096398095399095401092401092400092398093399096398095399095400094404092403093403092401095401095400096403096403093403093403092403093403093401096403096403095403093407092407093404093403093403095403096406096406093409092408093408092407093407096406095408095409095409092409092408093408094406095408095409095410093411093411092409092408093409095409095410095411094412092411093411092409095409095410095411096412095413093411092411093411093411095411096412095411094415093415093414093411095413095411096413095415000000000000093415093414095413096413095415000000000000094442000000000000000000000000000000000000095443092443092443094442000000000000000000095443095444092446092443092443094442000000095443095444095445092447092446092443095443095443095444095445094449092448092448092447095445095445096448096448093449093448092448092448094446096448096448096449093451093452093451093448093449096449096451094452000000000000092454093454093453094453094453095456000000093463000000000000000000000000000000000000094468093468094465094464000000095464096466096467093468000000093468094465094465096466096467094468095472092470094471093468094468094469095471095472095473092474092473092470095472095472095473095474095474093475092474092473095473095473095474096474093475000000093475092474095473095474096474096474)
 (.leaf 93477093477000000093475095474096474096474095475093477092477093477000000093475096474095475095476093478092478092477093477093477095475095476095477093480092480092479092478093478095477094478095479093481092481092480092479093479094478095479094481095485092484092483092482093482094483095485000000095485092485092484092483093484095485000000095485093487092486092485092484095485000000095485096487093488092488092486092485095485095485096487096488093489092488092488092486093487096487096488094489093492092491092490092488093489094489096490094492093492092492092491092490093490096490094492094493093494092494092493092493093493094493094495094495094502092501092501093498094498095498095499096500093502092502092501092501094499095499096500094502093506093507092505093503094503094504094504095507093507092507093507092505093506094504095507095508093508092507092507093507093506095507095508096508093509093508092507092507093507095508096508095510093509093509093508092507093508096508095510095511095513092513092512092512094510094511094511095512095514092514092513092512094511094511095512095513095515092515092514092513095513095512095513095514095515092516092515092514095514095513095514095515093518092518093518092516095515095515095518096518094520093518092518093518094516095518096518095518094521092520093518092518093518096518095518094520094527093525093524092524094523096524096525096526094528093526093525093524094524096525096526096527095532092533092531092531094529095531095532095533094535092535092534092533095532095533095534096534094536093536092535092534094532095534096534095536)))
 (.node 2 (.node 1 (.leaf 95548092550093549094546094546095546095547095548095550093551092550093549094547095547095548095549093551092550093551092550095548095548095549095550093551093551092550093551095550095549095550094552000000094559094559093558095557095558000000095560095561093562094559094559000000095560000000000000095562000000093562094559095560000000000000000000095562093562000000093562095561000000000000095562095564093565093562000000095562000000095562095563094566000000093565093562095562095562095563000000000000000000000000093565095564095563000000095565094569094568094568000000000000095565095566096568095572094572094572093569095570000000095572000000095573093575093574094572095572000000095572095573093575000000093575093574095573095572095573095576093575093575000000093575095573095573095576094576094579092578092578093575093575094576000000094579000000093578092578092578094576000000094579094579094582093582092580093578000000094579095581000000000000094585093583000000093583094583094585094585000000000000000000000000093587094587095589094589093594093595000000093593094591095593096593096594093596093596093595000000094592096593096594095596093597093597093596093595093594096594095596095597094598093598093597093596093596095596095597095598094599093599093598093597093597095597095598094599094604092604093603093602093602095602096602095604095606093607093606092605095605096605096605096605095607094607093607093606095606096605096605095606093609092610092609094607095607095607095608094611094612092611092610092609094608095608094611095612094619093619093616092616094615094616095618094619)
 (.leaf 93623094620093619095621000000000000000000000000000000093623094620000000000000000000000000000000000000000000093623000000000000000000000000000000093624000000000000000000000000000000000000000000094626093624000000000000000000000000000000000000000000000000094627000000000000000000000000000000000000000000000000000000000000000000000000000000000000000000000000000000000000000000000000000000000000000000000000000000000000000000000000000000093642000000000000000000000000000000000000094646093644092643093642000000000000000000000000000000000000000000094646000000000000000000000000000000000000000000000000000000000000000000000000094111094111000000000000000000000000000000096111094112093113094111000000000000000000096111097112096115095116095113093113094112097112096113096114096119000000094116095116095115000000000000096117096119000000000000094116095116000000096117000000094120000000000000000000096119096117000000000000000000095121000000000000096119000000000000096122094123000000093122095121000000096122000000097122094124093124000000093122095121000000097122096123094125094124093124000000094123097122096123097125094128094128093127093127095126096126095127096130094130094129094128093127094128095127096130095130094132094131094130094129094130095130097131097132094133094132094131094130094131097131097132097133096134094133094132094131094132097132097133097134096135094134094133094132094133097133097134097135096136093135094134094133096134097134097135096135096140094140093137094136095136095137096139097140096140094140095139094140096140097140097140097140))
 (.node 1 (.leaf 96143094143094140095139096140097140097140096141095144093143094143094140096140097140096141000000095145093143093143094143096143096141000000096143095150095150094149094148095146095147096149095150095157094157094156094155094155097155097155096157095158094158094157094156094155097155096157096158096161094161094160094159096159096159096160097161095163094163094162094161096161097161096162097163096166094167094166094165096165097165096166097167096167095167094167094166096165096166097167097168096171094171094168095168096167097168097169096171096172095171094171094168096168097169096171096172095174095173095171095171096172096172097173096174096179095179095179094178096178097177096179097178096182095183094181095181096180096180097182097183094186093186094185095183096182097183095185095185094190094190094189094188095188096188097189097191095193093192094190094189095189097189097191096193096193095193093192094190094190097191096193096194095198095197095195095194095194096196095197095197094201093201094201094200094200097200097200097200096201094201093201094201094200097200097200096201095206094206093204094204094203095202097205095205094211094212095209095209095208097210097210096212096212095212094212095209096209097210096212097212096214095214094212095212096212097212097213097215094216094217094214095214096214097215097215097216095218094218094217094214095214097215097216000000000000000000094218094217094216097216000000000000000000000000000000000000000000000000000000000000095348094346095345093346095344097345097346097347096350095350095348095348096348096347096348097349)
 (.leaf 94354094354094353095351096350096350096351096352094354095355094354094353095351096351096352096353095356095356095355094354094354096352096353096354096358094357095356095356096357096357096358097359096360093361095358094357096358097359096360097360096361095362093361095358096359096360097360097360096361093362095362093361096360097360097360096361095365094365093363093362096361096361097364097364095366094366094365093363096362097364097364000000095379000000000000000000000000000000000000000000000000000000000000000000000000000000000000000000000000000000000000000000000000000000000000000000000000000000000000000000000000000000000000000000000000095383000000000000000000000000000000000000096384095385095385095383000000000000000000097385095388000000094387095385096384097385097387097387000000000000000000094387095385097387097387095389000000000000000000000000000000096390000000000000000000095398000000000000000000000000000000000000096398095398095398000000000000000000000000000000096403094404093401095401095400096402096403097404096406095405093403094404096403097404097404096404095408094406093407095405096406096404097406097408095409093409094406093407096406097406097408095408096413095413095413094412096412096412096413097412000000000000094415095413096413097412097414096416000000000000000000000000000000000000000000000000000000000000000000000000000000000000000000000000000000000000000000000000000000000000000000000000000000000000000000000000000000000000000000000000000000000000000000000000000000000000000000000000096448094446095445095444095444096446096447096448))))
 (.node 4 (.node 2 (.node 1 (.leaf 96448094449094446095445095445096447096448096449096449093449094449094446096448096448096449097450096451094451093449094449096448096449097450097451094452093451094451093449096449097450097451096452094453094453093451094451096451097451096452097453094453093453094453093451094452096452097453097453094453094455093453094453094453097453097453097455095456000000094455093453094453097453097455096456000000000000000000094455094453097455096456096457096466094465000000000000000000000000096466096467096467094468094465000000095464096466096467097468094468093468094468094465096466096467097468095468095472095472095471094468094469095469096471095472094478093479093478093477095476096476096477096478094482093482093481093480095479096479095480096481094483093482093482093481094481095480096481096482095485093484093482093482094482096481096482096483000000095485093484093482094483096482096483095485096487093487095485095485000000095485095485096486096488093488093487095485095485095485096486096487094489093489093488093487096487096486096487096490096490093490093489093488096488096487096490000000094492093492093490093489094489096490000000096490094493093492093492093490096490000000096490095493094493093493093492093492094492096490095493095493094495093494093494093493094493095493095495095495096500094502094499094498095498097498096499096500094502093502094502094499095499096499096500096501094503093503093502094502096500096500096501096504094504094503093503093502094502096501096504097504094504093506094503093503094503096504097504097504095507093506093506094503094504097504097504096505)
 (.leaf 95508093507093506093506094504097504096505096506095511093509093509093508096508096507096508096511095518094516095515095515095514096514096517096518096518093518094516095515095515096517096518096519094520094521094520093518096518096519097520097521096522094522094521094520095518097520097521097521096523093523094522094521094520097521097521096523096523093523093523094522096522097521096523096524096524094523093523093523096523096523096524096525096525094524094523093523096523096524096525097525096526094527094524094523096524096525097525096527096527094528094527094524096525097525096527096528096528095529094528094527096526096527096528096529095530094528095529094528096527096528096529096530095537094537094536094535096534096533096534096535094539094538000000094538096537096538000000096538094542000000094542094539094539095539095540097542094543094542000000094542094541095540097542097543094544000000094542000000094542097542097543095545095546094544000000094542094543097543095545095545094552093551093551095550095549096549096550096553094553094554093551093551095550096550096553096554094554094555094554093551094552096553096554095555095556094556094555094554094553096554095555096556000000095560000000095558000000000000096560096561096568094569094566000000095565097566097567097568095570094570094569094566095566097567097568097569000000095570094570094569096568097568097569097570000000095572094572095570000000097570097571095572094579094579094576093575094576097576097577097577094579000000094579094576000000097577097577096580095581094581000000094579094579097577096580095581))
 (.node 1 (.leaf 94582094581000000094579096580095581095581094585094585093583000000094582095582095582095584094587093587093586000000094585095585097587097587095589093588093587093586094586097587097587097588094589000000093588093587094587097587097588000000095592000000000000000000094589000000096589095591095596093596093594094592096593096594097594097595095597093597093596093594096594097594097595095597094600094601093600094599094599095598097600096601095602093602094601093600094599097600096601096602096602094603093602094601094600096601096602097602096605095605094604094603096602097602097603097603094611093609094608095607095607096607096608097610095612094612093609094608095608096608097610097611094612094613094612093609094611097610097611096611094614093613093613094613094612096611097612096613094616094615094614093613094614096613095614097616095618094618094615094614095614095614097616095617000000095621094620094619094619095618000000000000000000000000095621094620094619000000000000000000000000000000000000000000000000000000000000000000000000000000000000000000000000000000000000000000000000000000000000000000000000000000000000000000000000000000000000000000000000000000000000000000000000000000000000000000000000000000000000000000000000094646094643000000000000000000000000000000000000094647094646094643000000000000000000000000000000000000094647094646000000000000000000000000097112094112094111000000000000000000096111097112000000095116095115096115096114098115098115097116000000096119096119095116000000097116097117097118096122000000094120096119000000097118000000000000)
 (.leaf 95121000000094120000000000000000000000000097125094125094124094123097122096123098124097124095126095125094125094124096123098124097124098126096130094128094128095126096126096127098128098128095130094130094128094128095127098128098128097131097132094132094131094130095130097131097132097133097133094133094132094131097131097132097133097134097134096134094133094132097132097133097134000000097140096140095137095136095137096137096139096139096146094146095145095144000000098143098143097144095146094146094146095145096143098143097144096146096149095149095146094146095146096146097146096148096152096152095151095150095150098150097151097152096153095153096152095151095150097151097152097153096157095157094155094155097155097155097156097157096158095158095157094155097155097156097157097158097165096165095164095163097163097163096164097165096171096171096168096167097168098168098169098170096172096172096171096168097169098169098170097172097182095181096180095181097179098179098180097181095185095185096182095181097182097181097182097183095185094186095185096182097183097182097183097184095186094186094186095185095185097183097184097185095187095186094186094186095185097184097185097186097189095189095188094187096187098187097190097191097191094190095189095188096188097190097191097192096193095193094190095189097189097191097192096192095198095199095198095197095197096196098197098199097200094200095199095198095197098197098199098199097200094200094200095199095198098199098199098200097200094201094200094200097200098199098200097200095202094203096201094201097200097200097201097204)))
 (.node 2 (.node 1 (.leaf 97205095203094203096201096201097201097204097205095205095206095203094203095202097204097205097206096207096207095206095203097205097205097206098206097208096207096207095206095205097206098206098206097210095208095207096207097208098206097207098209096212094211096209095208097210098209098209096211097216094216095214096214097215000000000000000000000000095218094216095214097215000000000000000000000000000000095218094216097216000000000000000000000000000000000000095218000000000000000000000000000000000000000000000000000000000000000000000000000000000000000000000000000000000000000000000000097343095343095342000000000000000000097342097343097345095344095343095342096342097342097343097344097346095347095344095343097343097343097344097345097347095348095347095344097345097344097345097346097349096350095348096348096347097347096348096350096357096357095356094354096353098353097356096357096358096357096357095356096354097356096357096358097364095365096362096361096361000000000000000000000000095366095365096362097364000000000000000000000000000000095366095365097364000000000000000000000000000000000000095366000000000000000000000000000000095379000000000000000000000000000000000000000000000000095379000000000000000000000000000000097387095385096384096384000000000000000000000000097387095388095385096384097385000000000000000000095389000000095388095385097387000000000000097387096390000000000000095388097387000000097387097388000000000000000000000000095389097387097388096391000000000000000000000000000000097392000000000000095400095399096398096398000000000000097398097399)
 (.leaf 96403096403095400095399095400097399096400097403097406096406096406095403097404097405098405098407095408095409095408096406097406098407098407097409095409095410095409095408097408098407097409098409096411095411095410095409095408097409098409098410096412096412095411095410095409098409098410098410096416000000095415096413097412098412097413097414000000000000000000095415097414097413097414000000000000000000000000000000000000096424097424097425000000000000000000000000000000097424097425097428000000000000000000000000000000097425097428097429000000000000000000000000000000097428097429097430000000000000000000000000000000097429097430097431000000000000000000000000000000097430097431096431096446095444095443000000000000096443097443097446096447095445095444095443096443097443097446096446096452094452096451096449097450097450098451097452097455094453094453094453097453098453098453097453096456095456094453094453097453098453097453096456096457000000095456094453097455097453096456097457096467096466095464000000000000000000000000000000095469094469094468096467097468000000000000097468096471095471094469094468095468000000097468097471095472095472095471094469095469097468097471097472095473095474095473095472095472097472000000097474000000096474095474095473095472000000097474096474095485000000095485094483096482097482097483097484095485095485000000095485096483097483097484098486000000096490094489096488096487098488098489098489095493094493094492096490000000098489098492098493095493094493094493094492096490098492098493098494095495094495094493094493095493098493098494096495))
 (.node 1 (.leaf 95495094495094495094493095493098494096495096496097497095497094496094496095496096496097496098497097498095498095497094496097497097496098497097498096504094503094502096500096500098501098502098502097504094504094503094502096501098502098502098503096511095511095510096508096507097507097508097509097511094511095511095510096508097508097509097510097514095513095512094511097511097511097512097513096517095515095514095513097514097513097516097517096518095518095515095514096514097516097517097518097521096522094520095518097520097520098520097522096523096523096522094520097521098520097522097523096538096537095537095536096534098535097537098537095539094539094539094538000000097537098539098540095540094541094539094539096538098539098540098541097542094542094541094539095539098540098541098542097543094543094542094541095540098541098542098542095545094544094543094542097542098542098542098543095545095546094544094543097543098542098543097544095546000000095546094544095545098543097544000000095546095546000000095546095545097544000000097546096553094552095550095549096549097549098551098552096554094553094552095550096550098551098552098553096557095557095556094554095555097555097556097557096561000000095560000000000000096558096560096561097564095563095562000000000000096562097564000000097566095565000000095563097564000000000000000000097567095566095565000000097565000000000000098568097568096568095566095565097566000000098568098568097570000000095570096568097568098568098568000000097571095572000000095570097569098568000000097570095572000000095572000000097570000000097570097571)
 (.leaf 95572095572000000095572097571097570097571097574095574095573095572000000095572097571097574097575095575095576095573095572095572097574097575098575097576094576095576095573095574097575098575097577097577000000094576095576095575098575097577098577097577094579000000094576097576097577098577097577096580094579094579000000097577098577097577097578095581095581094579094579097577097577097578096580095582094582000000095581095581096580097582096583095582094583094582000000095581097582096583096583095585094585094585094583095582096583098584098586097587094586094585094585095584098584098586097587097587094587094586094585095585098586097587097588097588095589094587094586097587097587097588000000000000094589095589094587097587097588000000097588095591095592094590094589000000097588097589098591096594096593095593095592095591098591098593098594095597095597095596096594097594097595098595098596096598095598095597095596097595098595098596096598095598094599095598095597095597098596096598097599096601094600094599094599095598097599097600096601096602095602094600094599097600097600096601098602097603096605095604096602097602098603098603098603097604096605096605095604097603098603098603098604097610094611095608095607096607097607097608098611097611095612094611095608096608097608098611097610097612095614094612095612097611097610098611096613097616094616095614094614096613096614097614097615095617095618094616095614095614097614097615098617095618094619095618094616097616097615098617097619000000094619094619095618095617098617097619000000000000000000094619094619095618097619000000000000)))))
 (.node 8 (.node 4 (.node 2 (.node 1 (.leaf 98114096113097112096111096111097111097112098113098115096114096113097112097112097112098113099115098115000000096114096113098114098113099115098115000000000000000000096117097117000000098118000000000000096122000000000000097118098118000000000000000000000000096122000000000000000000000000097122098124096123097122000000000000097122099123098123096127096126095126097125097124098124098125098126098128095127096126095126098126098125098126098127098128096130095127096126096127098126098127099129097131095130096130095127098128098127099129000000097132097131095130096130098128099129000000098132096139097140096139095137096137097136097137099139098140097140097140096139096139097137099139098141096142096141097140097140098140098141098142099141098143000000096141097140097140098142099141098142098143096143000000096141096142099141098142098143096146095146096146096143098143098143099144099145096148096149095147095146096146099145097146097148097151095150095150096149096148097148099150099150097152096152095150095150098150099150099150099151097161097161096160096159098159099159098160098161097162096162097161096160098160098160098161098162097172096172096171097169098169099169099170099171097173097173096172096171098170099170099171099172098180096180097179097178097178099179099179098180098187096187095187095186097185099186098186098187097190096188096187095187097186098186098187098188)
 (.leaf 96195096196096195096194096194097193098193099195096196095197096196096195096195098193099195098197098197095197095197096196096195099195098197099197098199095198095197095197096196098197099197099198098199097200095198095197098197099197099198098198098200097200097200095198098199099198098198098199097204095202096201097200097200098200097203099204098209097210097210097208097207098209099210098211098212097212096212097210098209098211000000000000000000097215097215097213000000000000000000000000000000000000000000097216000000000000000000000000000000000000000000000000000000000000000000000000000000000000000000000000000000000000000000000000000000000000000000000000000000000000000000000000096352096352096351096350096350097351099352099352098353096353096352096351096351099352099352098353097356096354096353096352096352099352098353099354096357096357096354096353098353098353099354098355097359097359096358096357096357098355097356098359097360096360097359096358096358097356098359097360000000097364096361097360098361000000000000000000000000097364097364096361000000000000000000000000000000000000000000000000000000000000000000000000000000000000000000000000000000000000000000098377000000000000000000000000000000000000098377000000000000000000000000000000000000098377000000000000000000097387097387097385000000000000000000000000096391000000096390095389097387000000000000098389097392000000000000096390097388000000098389097391000000000000000000000000000000098393099393000000000000000000000000000000000000099393000000000000096400096402095400096398097398098398097399098400))
 (.node 1 (.leaf 97403096403096402095400097399097399098400000000097404097404096403096402096400098400000000000000097409095408097408097406098407098407000000000000098410096412096411095409098409000000000000000000098412096413096412096411098410000000000000000000000000000000096416097414097413000000000000000000000000000000000000096416097414000000000000000000000000000000000000000000000000000000000000000000000000000000000000000000000000000000000000000000000000000000000000000000000000000000000000097421000000000000000000000000000000000000097421097421096424000000000000000000000000097422097424097424097428000000000000000000097424097424097427098428000000000000000000000000096431098432098433097433000000000000000000000000000000000000098437000000000000000000000000000000000000098437000000000000000000000000000000000000000000000000000000098440000000000000000000000000000000000000098440098443096443000000000000000000000000098440098443097443097446096446096443000000096443097443098443097445097449096449096448096447096446098447099447098449097450097450096449096448097446099447098449097449096456096456097455097453098453098454099455099455097458000000096457096456096456099455099456099458000000096467096466000000000000000000000000098467097471096471095469095468000000097468097468098469097472095472096471095469097468097468098469098472096474000000095473095472000000098473000000099474096479096478096477096476097476097476097477097479098486095485095485096483097483097483098484000000096487096486095485095485097484098484000000098486098488096487096486095485098486000000098486000000)
 (.leaf 98489096490096487096486096487098486000000098488098489000000096490096487098488000000098488098489098492096490000000096490098489098488098489098490098493095493096490000000098489098489098490098493098494095493095493096490098492098490098493098494096495095495095493095493098493098493098494098495096496095495095495095493098494098494098495000000096496095496095495095495096495098495000000098495098499096499097498097497098497098497098498099500098501096500096499097498097498098498099500099500098502096501096500096499098499099500099500098501098502096504096501096500098501099500098501098502098503097504096504096501098502098501098502098503098505096505097504097504098503098503098504098505096507096506096505097504098504098504098505098506097517096517096514097514097513098515098516098517097537096535096534096533098535099535098536098537098537096538096535096534098535098536098537098538098539096538000000096538098537098538098539098540098540095539096538000000097537098539098540099541098541095540095539096538098539098540099541099541098542097542095540095539098540099541099541098541000000095546095545095545098543099544099545099545098551096550096549096548097548099549099549099550098552096553096550096549097549099549099550099551098553096554096553096550098551099550099551098552097555095555096554096553098552099551098552099554097556096556095555096554098553098552099554099556096561096561096560000000096558097558098560097560096562000000095561096561096561097560098562000000097564096564000000095561096561098562000000098564000000097564096564000000096562000000098564098565)))
 (.node 2 (.node 1 (.leaf 97574095572095572097571097570000000098571098574097575095574095572095572097571098571098574097574096580095581096580097577097577098579098580099581097582095581095581096580097578098580099581099582096583095582095581095581096580099581099582099582098584095584095582095582096583099582098582098583098586095585095584095582096583098582098583000000097587097587095585095584098584098583000000000000097588097587097587095585098586000000000000098588098591095591096589000000097588098590099590098592098593096591095591096589097589099590098592098593098594096594096591095591098591098592098593099593097595097594096594096591098593098593099593099593096598096598095597097595098595098596099596099596097599095598096598095597098596099596099596099598097600097600095598096598096598099596099598098600098603097602096602096601096601099600000000000000098611097610096608096607097607099608099609099609096614096613097612096611098611098611098612097614097619095618095617097616097615097616000000000000000000000000095618095617098617000000000000000000000000000000000000000000000000000000000000000000000000000000000000000000000000000000000000000000000000000000000000000000000000000000000000000000000000000000000000000000000000000000000000000000097116097116098115098115099115100115099115100117000000097117097116098115098115099115100117099117000000000000097118097117000000099117000000100121000000000000000000097118098118000000100121100121097122000000000000000000000000100121100121000000099123096123000000000000000000100121000000100122000000097131098128098128098127098128000000000000)
 (.leaf 98132097132097131098128099129000000000000098132000000097133097132097131000000000000098132098132097134000000097134097133000000098132099132099133097135097134000000097134098132099132099133098135097137096139096137097135097135098136099138099139099139096139096139096137097136099138099139099140098141098140096139096139097137099139099140100140099144097144098143098143098142099142098143099144099145096146097144098143098143098143099144099145097146097146096146097144099144099144099145100146097148096148097146096146099145099145100146099147099150098150096148097146097146100146099147099150099150097151098150096148097148099147099150099151098153097153097152097151099150099151099152099153098154097154097153097152099151099152099153098153098157097157097156097155097155099155099156099157098160098160098159097158099158099158099159099160098166097166097165096164097164099164099165100166099169098168097168097167099166100166099168099169099172097173097172098170099170100170100172100172098174097174097173097172099171100172100172100173099174098175097174097173099172100172100173100174099179097178097177098177099177100177100179100179097182097181098180098179099179099179099180099181097184097183097182097181097182099181099184100185099186097185097184097183097184100185100185099185097191097192097191097190098188098188098189100191099193096192097192097191097189098189100191100191097193096194096192097192097191100191100191100193099195096195096195096194097193100193100193099196098197096196096195096195098193100193099196100196099197098197096196096195099195099196100196099196))
 (.node 1 (.leaf 97203097201097200098200098199098199098200099201099204097204097201097200098200098200099201099204097205097205097204097201097203099201099204099205098206097206097205097204099204099204099205099206099206098206097206097205097205099205099206100207098209097207098206098206099206100207100207099209099210098209097207098206099208100207099209100209000000096211098209098209099210100209100209000000000000000000000000098212000000000000000000000000000000000000000000000000000000000000000000000000000000000000000000000000000000000000000000000000099343097343097342000000000000000000099342100343097345097344097343097342098342099342100343099344097345097345097344097343099343100343099344098346097348097347097346097345097345098346100346100348097350096350096348097347097348100348099348099351097351096350096350096348098348099348099351100350099352096351096350096350097350099351100350100352099352096352096351096350097351100350100352100352099354097356098353096352099352100352099353099354097356096358096357097356099354099354100356100357098359097359096358096357098355100356100357099359097360097360097359096358097356100357099359099360000000098361097361097360097360099360000000000000000000000000000000000000000000000000000000099376000000000000000000000000000000099376099377000000000000000000000000000000098377099377000000000000000000000000000000000000000000000000000000000000000000000000000000000000000000000000000000000000000000097388097387000000000000000000000000000000097391097392096391097388000000000000000000099392098393000000097392096391098389000000099392099393)
 (.leaf 99393000000000000097392097391099392099393000000000000000000000000000000099393000000000000000000000000000000000000000000000000000000000000000000000000000000000000000000000000000000000000000000000000097403096400097399097399098399099400099403000000097404097403096400098400099400099403099404099404097405097404097403000000099403099404099405000000098405097405097404000000099404099405000000000000098407098407098405000000000000000000000000000000098409097409098407000000000000000000000000000000098412098410098410000000000000000000000000000000097413098412098412000000000000000000000000000000097414097413098412000000000000000000000000000000000000097414097413000000000000000000000000000000000000000000000000000000000000000000099417000000000000000000000000000000000000099417099420097421000000000000000000000000099417099420098420097422000000000000000000097421098420099420099421097424000000000000000000097421099420099421099422097424096424000000000000097422099421099422099423097424097424096424000000097424099422099423100424097427097425097424096424097424099423100424099427098428097428097425097424097424100424099427098428098429097429097428097425097427099427098428098428098432096431097431097430097429099430098431099430097435000000000000000000097433099432098433099434000000000000000000000000097434098433099434099435000000000000000000000000097435099434099435099436000000000000000000000000098437099437098438099441098443000000000000000000000000099441098442098442097445097446097443096443097443099444099445099446098447096446097446097443098443099445099446099447))))
 (.node 4 (.node 2 (.node 1 (.leaf 99447097446096446097446097445099446099447099448097449097450097449097446099447099448100449099448098452097452098451097450097449099448000000099450099456097457096456097453099455099455099456100457099458097458097457096456099455099456100457100457098459000000097458097457099456100457100457099459000000000000000000097458099458100457099459000000000000000000000000000000000000000000000000000000098467000000000000000000000000000000000000099465097468000000000000000000000000000000099465098467098472097472097471097468097468099470000000100471098473000000097472097471098469000000100471098473099474096474096474097474000000098473100473099474099476097475096474096474099474100473099474000000097476097476097475096474099474099474000000099476097477096478097476097475099476000000099476099477097479096479096478097476097476099476099477099478097480096480096479096478097477099477099478099479097481096480096480096479097479099478099479098481097483097483097482096481098481098482098482098484000000098486097484097483097483098484099484000000000000098488096487098486000000000000099486099487098493098493098492098489098489099489099490099491099500098501098499097498098498099498099499099500097509097508097507096507098506099506098507100509098511097509097508097507098507098507100509100511098512097510097509097508097509100509100511100512099520097520097519097518097518099518099519099520099521098520097520097519099518099519099520099521098523097523097522098520099521099521098522099523098527097527097526097525097525099525099526099527099545097544098543098542098542099542099543099544)
 (.leaf 99545000000097544098543099544099543099544099545099546097546000000097544099545099544099545099546099548097547097546000000099545099545099546099547099549097548097547097546099546099546099547099548099549097549097548097547099548099547099548099549099550098551097549097548099549099548099549099550099556097556097555098553098552099552099555099556099556097557097556097555099554099555099556000000097557096557097557097556099556099556000000099556097558096558096557097557099556000000099556099559098560096560096558096557097557099556099559098559000000096562096561096561097560099561099562098562098565000000097564096562000000098562099564099565098571000000098568098568000000100568099570098571000000097570000000098568098568099570098571098571098574097574097571097570000000098571098571099574097574097575097574097571098571098571099574098574099582096583097582096580099581099581099582100582098589000000097588097587000000100586098588099589099598097599096598098596099596099597100597100597098600097600097599096598099596100597100597099600099600096601097600097599099598100597099600000000000000098603098602096601099600000000000000000000099607097605098604098603000000000000099604099607099608097606097605098604097605099604099607100607099608097607097606097605099607099607100607100608099609097608097607097606099608100607100608099608099609098611097608097607099608100608099608100611097614096614096613098611098611100611099612098614097616097615097614096614097614098614100615000000000000000000097619098617000000000000000000000000000000000000000000097619000000000000000000000000))
 (.node 1 (.leaf 99639000000000000000000000000000000000000099639099640000000000000000000000000000000099639099640098643000000000000000000000000000000099640098643000000098111097111000000000000000000000000000000000000099115098113097112097111098111000000099112100115100115099115098113097112098112099112100115100116100117097116098115099115100115100116101116101116000000098118000000097116100117101116100117100118100121000000098118000000099117100117100118100121100121000000000000098118000000100118100121100122000000097122000000000000100121100121100122000000100122099123097122000000100121100122000000100122098125098124098123099123100122100122000000099125098127098126098125098124098125099125000000000000098128098127098126098125098126000000000000000000000000099129098127098126098127000000000000000000098132000000098132000000000000099130099130099132098135097135097134098132099132099132101134101135098136097135097135097134099133101134101135099136099139097137097136097135098136099136099136101139100146097146099145099144099144100144100145100146099150099150097148097146100146100146100149100150099151099150099150097148099147100149100150099150099156098156097155098154098153100154099155100156099165098165097164098163100163101163100164101165099169099169099168099166100166101166099168101169100174099174098174099172100172100173101173101174100177099177098176099174100174101174100176100177100179099179098177099177100177101178100179101179099184098182097182098180099180100180100181101182100185097184098182097182099181100181101182100185)
 (.leaf 100187098187098186099186099185101185101186101188098188098188098187098186100187101186101188101189098189097189098188098187100187101188101189101190100191097191097189098188098188101189101190101190100191099193097191097189098189101190101190101191100193097193099193097191100191101190101191101194099196099195098193097193100193101194101194101196098199098199098198099198100198101197100200099200099204099204097203098200098200099200100203101204099205097205099204097203099201100203101204101204099209098209099208099206100207100207101207101207000000000000000000098211100209101211000000000000000000000000000000000000000000000000000000000000098346097345097345099343100343101343100344100345100346097346097345097345099344100344100345100346100348097348097346097345098346100345100346100347099351097350098348097348100348100347100348100349100350097351097350098348099348100348100349100350100356098355099354098353099353101354101355101357100357097356098355099354099354101355101357100358099359098359097356098355100356101357100358100359099360097360098359097356100357100358100359000000000000000000000000000000000000000000000000000000000000000000000000000000000000000000000000000000000000000000098377000000099376100376101379000000000000000000000000098377099377101379000000000000000000098389000000000000000000000000000000000000099392097391098389000000000000000000000000000000099393098393097391098389000000000000000000100393000000000000000000099393000000000000000000000000000000000000000000000000000000000000000000000000000000000000000000000000000000000000000000000000)))
 (.node 2 (.node 1 (.leaf 98398000000000000000000000000000000000000098399097399098398000000000000000000000000000000099403000000098400097399098399000000100400101402099404000000000000098400099400100400101402100404000000000000098407000000000000000000000000000000000000000000000000098407000000000000000000000000000000000000000000000000000000000000000000000000000000000000000000000000000000000000000000000000000000000000000000000000000000000000000000100412000000000000000000000000000000000000100412100415000000000000000000000000000000100412100415099415099420000000000000000000000000099416100417100418098420097421000000000000099417100417100418100421100424097424097424097424099422099422100423100424099427097427097424097424099423100423100424099427098428098428097427097424100424100424099427099428098431098431097429098429098428099428100428100429098431098433098432098431098431100429099430100431098433097434097433098433098431100431101432100433098438000000098437000000099436101436100437100438099441000000000000098437099437100437100438100439098442098440000000000000098438100438100439100440099444097443098443098440098442100440100441099444099445098443097443098443098442100441099444100445000000098451097449098449100449101448101450101450099453098453098452098451000000101450101452101453099454098454098453098452099450101452101453100454099459098459099458099456100457100457101458000000000000000000000000000000000000000000000000000000098467097468098467000000000000000000000000100466098468097468097468098467099465000000100466101467)
 (.leaf 99470097468097468097468098467100466101467101468000000098469097468097468098468101467101468101469098473098473098472098469000000101469100470100471098473000000098473098472100471100470100471100472100473099474000000098473098473100471100472100473000000099476099474099474100473100473100474100475098481097481097480097479099478100478100479100480098482098481097481097480099479100479100480100481098482097483098481097481098481100480100481100482098484097483097483098481098482100481100482100483000000000000098484097483098484100483099484100485100489098488000000098486099486101487100487100488100492098494098493098490099490100490099491100492100493098495098494098493099491099491100492100493098495000000098495098494100492100492100493100494098496098495000000098495100493100493100494099496098505098504098503098502099502099503101503100504098506098505098504098503099503101503100504100505098507098507098506098505098506100505100508100509100509097509098507098506099506100508100509100510100511098511097509098507098507100509100510101511100512098512098511097509100509100510101511100512100512098513098512098511100511101511100512100513099514098514098513098512100512100512100513100514000000098515098514098513100512100513100514100515099517098517098516098515000000100515100516100517099518097518098517098516099514100516100517100518099524098524098523098522098522099521100523100524099539098539098538098537100536101536100538100539099540098540098539098538100538100538100539100540099559097558097557099556000000100557099558099558099562098562097560098560098559100558099561099562))
 (.node 1 (.leaf 98568098567098566000000100566000000100568099570098568000000098568000000100568000000101569098571098571098568000000100568000000101569100571098571098571000000098571098571100571000000100571099574098574098571000000098571000000100571099573098578098579098578097576000000099576099576101578098579098580098579098578098577099576101578101580099581099581098580098579098578101578101580101580099582099582099581098580098579101580101580101582098585000000098583098582100582100582101585100586100586000000000000098583099583101585100586100587098588098588000000000000098585100586100587099588099589098589098588000000100586100587099588100589100593099593098593098592100592101591101592101594100595098596099593099593100593101594100595101595099597099596098596099593100594100595101595101596000000099600098600099598100597000000000000000000000000000000000000099600000000000000000000000000099607099607097605000000000000100603000000000000100607099608099607097605099604000000000000000000100611098610099609099609099608000000000000100610100611098611098610099609100611000000100610101611098614097614098612098611100611101611100612000000100615098616097614098612099612100612000000000000000000097616098616097614098614000000000000000000000000000000097616098616100615000000000000000000000000000000000000097616000000000000000000000000000000000000000000000000000000000000000000000000098643000000000000000000099639100639100640101642000000000000000000000000099640100640101642000000000000000000000000000000098643101642000000000000000000098111000000000000000000000000000000000000)
 (.leaf 99112098112098111000000000000000000000000102114100115099115098112098111000000000000102114102115100116100115099115098112099112102114102115102115100121100121000000099117100117102117100120101121000000100124100122000000000000100122000000100124000000098127098126098125099125100125100127100127099130000000000000098128000000100128102129100130099132098132098132000000099130100130101132000000099132099132098132098132099130101132000000102133101134099133099132098132099132000000102133101133101135098135099133099132099132102133101133101134099136098136098135099133101134101133101134101135099136099138098136098135101135101134101135101138101139099139099138098136099136101135101138102139100140099140099139099138099136101138102139102139101139100140099140099139101139102139102139100140099143099142100141099140099140102141102141101142101143098143099142100141099142102141101142101143100149099147100146099145100145100145102147101149100150099150099147100146100146102147101149100149100154098153099153099152099151100151102153101154099155099155098153099153099152102153101154100155101166100166100166099165101165102165101166101167101169099169099168100166101166101167101168101169101170100169099169099168099168101168101169101170100173100172100172100170101170101171101172101173100177100177099176100174101174102174101176100176101179100179100179100177101178101178101179102179101182099184099181099180100180102181102181102184100185100185099184099181100181102181102184102184101184100185100185099184101182102184102184102185101186100187099185100185101184102185102185102186))))))
 (.node 16 (.node 8 (.node 4 (.node 2 (.node 1 (.leaf 101189098188100187100187101186102186102187101190101190098189098188100187101188102187101190102190101190100191098189098188101189101190102190101190101194100193100191100191101190101190102192101194101196099196100193100193101194101194102193102195101196100196099196100193101194102193102195102195101197100198099196100196101196102195101196101197099200098199099198100198101197101197100200100200100203099201098200098199099200100200100202100203101205099206099205099204101204101204101205102205100207100207099206099205101204101205102205102207101207100207100207099206101205102205102207000000000000100209099209100207101207000000102207000000000000000000100209100209000000000000000000000000000000000000000000100209101211000000000000000000000000000000000000000000000000000000000000000000101343099342000000000000000000000000102341101342101354099353100352100352100351102351101352101353101355099354099353100352101353101352101353101356101357100356099354099353101354101353101356101357000000000000000000000000000000000000000000000000000000000000000000000000000000000000000000000000000000000000000000000000000000000000000000000000000000000000000000000000000000000000000000000000000000000000000000000000000000000000000000000000101379099377099376000000000000000000101378000000000000000000099377099376100376101378000000000000000000000000000000099377101379000000000000000000000000099392000000000000000000000000000000000000100393099393099392000000000000000000000000000000000000000000099393099392000000000000000000101394000000000000000000000000000000000000000000000000)
 (.leaf 98399000000000000000000000000000000000000101402099403099400098399000000000000000000102402100404099404099403099400100400000000102402100404100405099405099404099403101402102402100404100404000000000000000000000000000000000000000000000000000000000000000000000000000000000000000000000000000000000000000000000000000000000000000000000000100415000000000000000000000000000000000000101413099415000000000000000000100412000000101413101414099427099427100424099423100423100423102426100426099428098428098428099427099427100426101426101427099430099430098431099430100428100429101429102430101432099432098431099430099430102430101431102432101436099436099435099434100434101436101437102437099444099444098442098442100440101440102441102442100445099445099444098442100441102441102442101443101445099446099445099444099444102442101443101444100448099448099447099446101445101444102446102446101448100449099448099447100445102446102446101449101452099450000000099448101450101450102451102451101453099453099450000000101450102451102451101453100454099454099453099450101452102451101453101454099455099455099454099453101453101453101454100455000000000000099459100457101458101458000000000000101467098468098467099465000000000000000000101467101468099470098468098467100466000000101467101468101469000000099470098468101467101467101468101469099477099477099476000000100475101475101476101477099484099484098484098482100482101482100483101484101487099486000000099484099484101484100485101486099491099491099490099489101490101489101490102492))
 (.node 1 (.leaf 99496098496098495100493100493101493100494101495099497098496098496098495100494100494101495101496099498098497098496098496099496101495101496101497099499099498098497098496099497101496101497101498099501099499099498098497099498101497101498102500099501099500099499099498099499101498102500102500099502099501099500099499099501102500102500101501099503099502099501099500099501102500101501101502101503099503099502099501099502101501101502101503100508099506098506098505100504101504000000100508100509098507099506098506100505000000100508102509100524099524099523098522099521100521100523100524100528099528099527099526099526101526100527100528099547099546099545099544099545100545102546102547099548099547099546099545099546102546102547102548099549099548099547099546099547102547102548102548099551099550099549099548099549102548100549101550099552099551099550099549099550100549101550101551099553099552099551099550099551101550101551100553099556099556099555099552099553100553100553100556100557000000099556099555099555100553100556100557099562099562099561098559100558100559101559101560099563098562099562099561099561101559101560101563099564099564098562099562099562101560101563102564099565099565099564098562099563101563102564102564100566000000099565099564099564102564102564100566000000099567000000099565099565102564100566101567000000100568000000099567000000101567101568000000100571098571099570100568000000000000000000100571000000098571098571099570101569000000100571100571099575000000098574099574099573100573101573101574099576000000000000098574100573101573101574101577)
 (.leaf 99576098577000000000000099575101574101577101578101578098578098577000000099576101577101578000000101580098579098578098577099576101578000000101578101580099581098579098578101578000000101578102581101582099582099581098579101580101578102581102581101582100582099582099581101580102581102581102581101585099583100582100582101582102581101582101585100586098585099583100582100582101582101585100585099589099590099589098588099588101586101589102589101591100592099591099590099589102589101591102592101592100593100592099591101591101591102592101593101598100597099597100595101595000000000000000000000000099600100597100597101598000000000000000000000000000000099600100597000000000000000000000000000000000000000000000000000000000000000000000000000000099604000000000000000000000000000000000000000000099607099604000000100603000000000000000000000000100607099607099604000000000000000000000000000000100611099608100608000000000000000000000000000000098614099612100611101611101611101612000000000000100615098614099612100612101612000000000000101642098643099640099639100639101639100640102642000000000000098643099640100640100640102642000000000000000000000000098643101642102642000000000000000000000000000000000000000000000000000000000000102114099112000000000000000000000000000000000000102115100115099112000000000000000000000000103113102115100116100115099112102114000000103113103116102116101116100116100115102115103113103116103116102117100117101116101116102116103116102116102117100120100118100117101116101116102116102117102118101121100121100118100117102117102117102118101121)))
 (.node 2 (.node 1 (.leaf 100121100122100121100118100120102118101121102122100124000000100122000000100122101122000000103124100125099125000000100122000000000000103124101125100128000000000000000000100127101126103127103128102129000000000000000000100127103127103128103129100130099130000000000000100128103128103129103130101132099130099130000000102129103129103130000000000000099132099130099130100130103130000000101132102139101139099136099136101135101136103138102139102141099140101139100140102139103140102139103140102141099142099140101139100140102139103140101142100145100144101143099143101142101142102143103145100145100145100144101143101143102143103145103145102147100146100145100144100145103145103145103148101149100149100146100145100145103145103148103148100149100150100149100146102147103148103148103149100151099151099150100150100149103149103150103151102153099152099151099150100150103150103151103152101154100154099152099151100151103151103152102154100155099155100154099152102153103152102154103155100157099157100156099155100155103155102156102157102159100159100158099157100157102157102158102159100160099160100159100158102158102158102159102160101161100161099160100159102159102159102160102161100162100162100161099160100160102160102161102162101164100164101163100162100162102162102163102164100176100177100176101174102174102175102176102177101179100179101178100177100176102177102178102179102181100180099180101179102179103179103180103180102181100181100180099180101179103180103180103183102184100185101182100181102181103183103183103184102187101188101186101185102185102185102186102187)
 (.leaf 101194101194101191101190101190101191102191102192102193101194101194101191102192102191102192102193102195101196101196101194102193102193103195102195100200100200101197101197101196101196103197101199100203100203099200099200100200101200101202102203101205101204101204100203100203102203101204103204000000101207100207101205102205000000103207000000000000000000101207101207000000000000103207000000000000101211000000101207102207103207000000000000000000000000101211000000000000000000000000000000000000000000000000000000000000000000000000000000102341100341000000000000000000000000000000102341102346100344101343101343101342102342102343103345100345100345100344101343102343102343103345102345102347100347100346100345100345102345102346102347102351100351100350100349101349102349101350102351000000000000000000000000000000000000000000000000000000000000000000000000000000000000000000000000000000000000000000000000000000000000000000000000000000000000000000000000000000000000000000000000101378100376000000000000000000000000000000000000000000101379100376000000000000000000000000000000000000100393000000000000000000000000000000000000101394000000100393000000000000000000000000000000000000000000000000100393000000000000000000000000000000000000000000000000000000000000000000000000000000100400000000000000000000000000000000000000102402101402100400000000000000000000000000103402100404100405100404101402102402103402102402102405000000000000100405100404100404102402102405000000000000000000000000100405100404102405000000000000000000000000000000000000000000000000000000000000))
 (.node 1 (.leaf 100412000000000000000000000000000000000000100416099416099415100415101413102413102414102415100417100417099416099416100416102415102416102417100419100418100417099416101416102416102417103418100420100421100418100417100417102417103418102421101422100422100421100418100419103418102421102422101423100423100422100421100420102421102422000000102426100424100423099422100423101423102423102426100426099427100424100423100423102423102426000000100429100428099428099428101426102426101427102428102430099430100429100428100429102428102429102430102435100433101432100431101431103431102432102435101436100434100433101432102432102432102435102436101437100435100434100433102435102435102436103437102439100438100437101436102437102436102437102438102439100439100438100437102438102437102438102439102441100441100440100439102439102439102440102441102442099444100441100440101440102440102441102442102446100448100445101445101444000000102445102446101449101448100448100445102446102445102446102449101453101453101452101450102451102451102452101453101458101458100457100456100455101455102457000000000000100466000000000000000000000000000000000000100471100470101469101468101468102468102469101472100472100471100470101469101469102469101472101472100479100479100478099477101477101477102478102479100485100485099484100483100483101483102484102485102492099491100490101490101489102489102490102491100494100494100493100492101492102492101493103495102500099501099499099498101497103497103498102499)
 (.leaf 102500099501099501099499101498103498102499102500000000100505100504101503101503102503103504101506102509100509100508100505000000101506101506102509101510100510100509100508100508101506102509102510101511101511100510100509102509102509102510101511100524100524100523099521100521101521101523101523100527100527099526100525100525101524101526101527101535100535100534100533100533102533101534101534100539100540100539100538100537101537102537000000100540099540100540100539100538102537000000102539100541099541099540100540100539000000102539102540100542099542099541099540100540102539102540103543100543099543099542099541100541102540103543103543100544099544099543099542100542103543103543000000100545099545099544099543100543103543000000102546102546099546099545099544100544000000102546000000102547099547099546099545100545102546000000000000102548099548099547099546102546000000000000102547102548099549099548099547102547000000102547102548100549099550099549099548102548102547102548102549100553099553099552099551101550102550101551102552100553099555099553099552101551101551102552101554100557099558100557099556100556101554101555102556100558099558099558100557100557101555102556103559100559100558099558099558100557102556103559102560101563099563099562099561101559101560101560102561102564099564099563099562101560101560102561102564100566100566099565099564102564102564000000101565101568100568000000100566100566101565101567101568100571000000100571101569000000101568102569102570100572100571000000100571100571102569102570102573100573099573100571000000100571102570102573101573))))
 (.node 4 (.node 2 (.node 1 (.leaf 101577099576099575100573101573101574101574102577101578099576099576099575101574101574102577000000102581101580101580101578000000103579103579103580102581101582101582101580102581103580103581102581101585101585100582101582102581102581102582103583100585100586101585100582101582102582103583102586101589100589099588100587102585103586102588102589102589099589100589099588101586102588102589102590102592101591101591099589102589102590102591102592000000000000101598101596000000000000000000000000000000000000000000000000000000000000000000000000000000100603000000000000000000000000000000000000000000000000100603000000000000000000000000000000000000000000000000100603000000000000000000000000000000000000000000000000000000000000000000000000102611100610000000000000000000000000000000102610000000000000100612101611101611102611103612103614000000000000000000100612101612103612103614103615000000000000000000000000000000103614103615000000100640100640100639000000000000000000102639103642102642101642100640100639101639102639103642103642000000000000000000101642102642103642000000000000000000102114000000000000000000000000000000000000103113102115102114000000000000000000000000000000101121101121100120102117102117103117104118103119102122100121101121100120102118104118103119102121103124100124000000100122101122000000000000000000101125100125100124000000000000000000000000104125101126100127100125100124103124000000104125104126103127100127100127100125101125104125104126000000103128100128100127100127101126104126000000000000103129102129100128100127103127000000000000104129)
 (.leaf 101132100130102129103129104129104130104131101132000000101132100130103130104130104131102132102139102139101138101135101136103137103138103139103140102139102139101138103138103138103139104139103140102141100140102139103140104139104139103140103145100145100145101143102143102144102144103145103148102147100145100145103145102144103145104148103149100149101149102147103148104148103149103150103150100150100149101149103148103149103150103151103151100151100150100149103149103150103151103152103152102153100151100150103150103151103152103153102154101154102153100151103151103152103153103154102157100157101156100155103155103155104156103157101168101168101167101166101166103166103167103168102169101169101168101167101166103167103168104169103170101170101169101168101168103168104169103170103172101172101171101170103170103170103171103172102173101173101172101171103170103171103172103173102174101174101173101172103172103172103173103174103180102181101179102179103179104180104180104181103183102184102181102181103180104181104181104183103184102184102184102181103183104181104183104183103188101190102187102186102186104186103187104188103197101197101196102195102195102196103196103197101199100200101197101196101196103196103197104199101200100200100200101197103197103197104199104200101202100202100200100200101199104199104200104201102203100203100202100200101200104200104201102203101204101204100203100202101202104201102203103204000000102205101205101204101204103204103205000000000000000000102207102205000000000000000000000000000000000000102207000000000000000000000000000000))
 (.node 1 (.leaf 102207103207000000000000000000000000000000000000000000000000000000000000000000000000000000000000000000000000000000000000000000103345102346102343101342102342103342104344103344101348101348102347101346102346103346102347104349101350102351101349101348101348104349104350104350101353101353101352102351102351103351103352103353101356101356101353101352102352103352103353103356103356101357101356101353101353103353103356103357103357101358101357101356101356103356103357103358103358101359101358101357103356103357103358000000101359000000101359101358103357103358000000000000000000000000000000101359103358000000000000000000000000000000000000000000101359000000000000000000000000000000000000000000000000000000000000000000000000101378000000000000000000000000000000000000000000000000101378000000000000000000000000000000000000000000000000101378000000000000000000000000000000000000000000000000000000000000000000000000000000000000000000000000000000000000000000000000000000000000000000000000000000000000000000000000000000000000000000000000000000000000000000000000000000000000000000000000000000000000000000000000000000101394000000000000000000000000000000000000000000000000101394000000000000000000000000000000000000000000000000101394000000000000000000000000103402102402000000000000000000000000000000000000102405100404100404102402103402000000000000000000000000000000100404100404102402000000000000000000000000000000000000000000000000000000000000000000000000000000000000000000000000000000000000000000000000000000000000000000000000000000000000000000)
 (.leaf 103418100419100417101416102416102416104417103418102421100420100419100417102417104417103418103419102422101422100420100419103418103418103419000000103431101431102430101429102429000000104431104432102435102435102432101431103431104432103434104433102436101436102435102432102432103434104433102435102445101443102442102441102441104442104443103443000000101444101443102442102442104443103443103444102449101449102446102446102445102445103446104448102450101450101449102446102446103446104448103450102455100455101454101453101453104451103452103453000000101458101457100455101455102455102455000000101472100471101469101468102468103468104470103470101472100472100471101469102469104470103470103471101473100472100472100471101472103470103471103472101473101473100472100472101472103471103472103473101474101474101473100472101473103472103473102475101483100483101482101481101481102481102482102484101487101486100485101484102484102485102485103486101493101493101492102492102491102492102492103495103495100494101493101492102492102492103495104495103495101495100494101493101493103495104495104496103497101497101496101495103495104496104496104497103498101498101497101496102496104496104497104499103502101502101501102500102500103500103501103502103504101504101503101502103502103502103503103504101506000000101504101503102503103503103504103505101506100508000000101504103504103504103505103506102509102509100508000000101506103505103506103507)))
 (.node 2 (.node 1 (.leaf 102510101510102509100508101506103506103507000000101513101514101513101512101511102511104512102513101523100524100523100521101521102521102523102524000000100539100538100537101537103538103539103540103543100542100541100540102539103541000000103543103543100543100542100541102540000000103543000000000000100544100543100542103543103543000000102544000000102546100545100544000000102544102544102546101554100553100553101551101551102551103552103555101554100556100553100553102552103552103555000000101555100557100556100553101554103555000000104556103559100558100557100557101555104556104557104559102560100559100558100557102556104557104559103560101560101559100559100558103559104559103560102560000000102564102564101563102561102562103564103565101567101567100566102564000000103565102566103567101568000000101568101567101567103567102568102568102573100572100571100571102569103569103572102573101573100573100572100571102570103572102573103572101574101574101573100573101573103572103575103576102577101577101574101573101574103575103576000000000000101578101577101574101574103576000000103578103579101578000000101578000000103578103579104580103580102581101578000000103579103579104580103581103581102581102581101578103579104580103581104581103583101585101582102581102581103581103584104584102586100585101585101582102582103584104584104585102589101589101586102585103586103587103588103589000000000000102595101594101594102593103595000000000000000000000000000000000000000000000000000000000000000000000000000000000000000000000000000000103612101612101611102611102610102611104612104613)
 (.leaf 103614000000101612101611102611104612104613104613103615000000000000101612103612104613104613104615000000000000000000000000103614104613104615104616000000000000000000000000103615104615104616000000103642102642100640101639102639102640000000000000000000000000000000102642103642000000000000000000000000103116103113000000000000000000000000000000000000103116103116103113000000000000000000103116104118102118102117102116103116103116104117104118102121102122101121102118104118104118104119103122000000101122102122101121103119104119103122105123000000103124000000101122000000105123105123000000104126101126101125103124000000000000000000104125000000103127101126101125104125000000104125000000102132101132000000103130104130000000105130103132102135102136101134000000102133103133103133103135103138103138101136102136102135103135104137105138102142101142103140102139104139105140105141103142102144102143101142101142102142103142104142105144102144103145102143101142103142104142105144104146104148103148103145103145102144104146104147105148103149103148103148103145103145104147105148105148103158102158102157102156104156103155104157104158103167101166101166102165104165105165105165105166103171103170103170102169104169105168105169103171104181103183103180103180104180105181104180104183104183103183103183103180104181104180104183105182102185102185103184103184104183104183104184104185104186102186102185103184104185104184104185105186102189102189103188102187103187103187104188103190102194102193102192102191103191104191103192103194104199101199103197101196103196103197103197104198))
 (.node 1 (.leaf 104200101200101199103197103197103197104198104201104201101202101200101199104199104198104201104202102203102203101202101200104200104201104202104203103204101204102203101202104201104202104203104204103205103204101204102203102203104203104204105205000000000000103207000000000000105206000000000000000000000000103207000000000000000000000000000000000000000000000000103207000000000000000000000000000000000000000000000000000000000000000000000000000000000000000000000000000000000000000000000000000000102341000000000000000000000000000000000000102347102347102346102345103345105346105347104347104349101348102347102346103346105347104347104348104350102349101348102347102347104347104348104349104350101350102349101348104349104348104349104350103356101356101353102352103352103352104353104356103357103356101356101353103353104353104356104357000000000000101359103358000000000000000000000000000000000000000000000000000000000000000000000000000000000000000000000000000000000000000000104385000000000000000000000000000000000000104385105386000000000000000000000000000000104385105386000000000000000000000000000000000000105386000000105390000000000000000000000000000000000000105390000000000000000000000000000000000000105390000000000000000000000000000000000000000000000000000000000000000000000000000000000000000000000000000000000000000000000000000000000000000000000000000000000000000000000000000000000000000000000000000000000000000000103402000000000000000000000000000000000000000000102405102402103402000000000000104402104403000000000000102405102402000000104402104403000000)
 (.leaf 102405000000104403000000000000000000000000000000000000000000000000000000000000000000000000000000000000000000000000000000000000000000000000000000000000000000000000000000000000000000000000000000000000000000000000000000000000000000000000000000000000000000000000000000000000000000000000000000000000000000000000000000000000000000102413000000000000000000000000000000000000102416102415102414102413000000000000104414104415102416102416102415102414103414104414104415104416104417102417102416102415102416104415104416104417000000102422102421103418103418000000000000103421000000101423000000102422000000103421105422105424102424102423101423000000103421105422105424104425102425102426102423101423000000105424104425104426102426000000102426102423102424104425104426000000102427102426000000102426102425104426000000000000000000102429102428101427103427104427104428105430104431102430102429102428103428104428105430105430103434102432103431102430104431105430104431105433104433102435102432103431104432104431105433104433102436103437102436102435104433104433104436105436103438102436103437102436102435104436105436105436104440102439102438102437104437104437104440104441104442102441102440102439104440104441104442104443104443102442102441102440104441104442104443105444102445102445000000102445103443104443104444104445104448102449102446102445102445104445105447104447103450102450102449102446103446105447104447104450104450102451102450102449104448104447104450000000104451101453102452102451104450000000104450104451102455102457101455102455103453103454104454105456)))))
 (.node 8 (.node 4 (.node 2 (.node 1 (.leaf 102457101455102455104454105456104458000000000000000000102457102455105456104458000000104470102469102468000000000000000000105468104469102475101474101473101473103472104472104473104474102476102475101474101473103473104473104474103476102485102484101483101483102482103482103483103485104490102490102489102488103488104488103489104490102492102491102490102489103489103489104490104491102492102492102491102490104490104490104491105493103495101493102492102491102492104491105493105493104495103495101493102492102492105493105493105494104496102496103495103495104495105494105496105496104500102499103498103497104497105498105498104499102509101511102510102509103507104509103508104511102511101511101511102510000000103508104511104512104512101512101511101511102509104511104512104513102513101513101512101511102511104512104513103514102514102515101513101512104512104513103514103515102533101534102533101532102532103531104531104532102534101534101534102533102532104531104532104533102535101536101534101534102533104532104533104534102536101536101536101534102534104533104534104537103538101537101536101536102535104534104537103537000000103543103543102540000000103541103541103543000000000000000000102546102544103545000000104546102551101551102550102549103549000000104550104551103555101554102552101551102551104551104552104555000000101554101554102552103552104552104555105555104557102556101555101554000000105555104557105557104559103559102556101555104556104557105557105558103560102560103559102556104557105557105558104560102562102561101560101560102560104561104562105563)
 (.leaf 103564102564102561101560102561104562105563103564103565000000102564102561102562105563103564103565102568101568101567101565102566103565103565103567103572102570102569101568102568103569103569103572102573102573102570102569103569103569103572103572103575101574101573102573102573103572104572104575103576101574101574101573103572104572104575104576103579103579000000102577000000000000103578103578103584102582102581103581104581105581105581105583103587103586102586103583104584105584105584104585000000000000102595101594102593104594103595103596000000000000000000000000000000104597000000000000000000000000000000000000000000000000000000000000000000000000000000000000000000000000000000000000102611102610000000000000000000000000000000000000104612102611102610000000000000000000000000000000104613103614103612102611104612000000000000104613000000000000000000103615104615104614104615000000000000000000000000000000104616104615000000000000000000000000000000000000000000000000000000000000000000000000000000000000000000000000000000000000102640102639000000000000000000000000104638103641000000103642102639000000103638104638103641000000000000000000000000103642000000000000000000000000000000000000000000000000000000000000000000000000103116000000000000000000000000000000000000105115103116103116000000000000000000000000105115105118103122102121103119104118104118105118106119106120105123000000102121103119104119106119106120105121105123000000000000102121103122106120105121106123000000000000000000000000105123105121106123106124000000104125000000000000105123106123106124000000))
 (.node 1 (.leaf 104129000000000000000000104127000000106129103133102133102132104131105130106131106131105132103133102134102133102132103132106131105132105133103135102135102134102133103133105132105133106135104137103137102135102134103133105133106135106136105138103138103137102135103135106135106136106136105138104139103139103138105138106136105137105138105141103140104139104139105138105138105139105140103142102142103140104139105140105139105140105141105144102144103142102142103142105141105142106144104146102144102144103142104142105142106144106144104147103145102144102144105144106144106144105145103151103151103150103149105148106148105148105151103153103153103152103151103151105151105152104153103153103154103153103152103152105152104153104154104163103163103162103161103161106161105162106163104164103164103163103162103162105162106163106163105168103168103167103166105165106166106166106167105168104169103168103167105166106166106167106168105169103170104169103168105168106167106168106170103171103172103171103170105169106170106170105170103172103173103172103171103171106170105170104172103174103175103174103173103172104172106173104175103176102176103175103174103173106173104175104175103177103178102176102176103176104175105177106178104180104180103179103178103177106178106178106179105181104180104180103179103178106178106179105181105182104183104181104181104180106181105181105182103187103187104186102185104185105185105186105187103190102189104188103187103187105187105188105189103194102194103192103191104191104192104192104194103197103196102196103194103194104194104195104198)
 (.leaf 103197103197103196102196103195104195104198104198000000000000000000103205105205105205105206000000000000000000000000000000105206105206000000000000000000000000000000000000000000000000000000000000000000000000000000000000000000000000000000000000000000000000000000000000000000000000000000000000000000000000000000000000000000000000000000000000000000000000000000000000000000000000000000000000103343103342000000000000000000000000000000000000105345104344103342000000000000000000000000106344105346103345103344104344105345106344000000000000105347103346103345103344105345000000000000106347103352103351104350104350104349104349105350105351103352103352103351104350104350105350105351104353104357103357103356103353104353104354105356000000000000000000000000103358103358000000000000000000000000000000000000000000000000000000000000000000000000000000000000000000000000000000000000000000105386000000000000000000000000000000000000000000000000000000000000000000104385000000000000105387105390000000000000000000105386000000105387105390000000000000000000000000000000105387105390000000000000000000000000000000105390105390000000000000000000000000000000000000000000000000000000000000000000000000000000000000000000000000000000000000000000000000000000000000000000000000000000000000000000000000000000000000104402000000106405000000000000000000000000000000104403106405000000000000000000000000000000000000000000000000000000000000000000000000000000000000000000000000000000000000000000000000000000000000000000000000000000000000000000000000000000000000000000000000000000000000)))
 (.node 2 (.node 1 (.leaf 103418104417102416104416104416106417104420000000103419103418104417104417106417104420105421105422103421000000103419000000105421106421106422105424000000103421000000103421106421106422105424104425102424000000103421105422106422105424104425104426102425102424000000105424105424104425104425105430000000103428103427104427105427106429106430105430104431000000103428104428106429106430106431104436102435104433103434105433105432105433106436105436102436102435104433104433105433106436105435104440103440104437103438105436106438106438106440104441104440103440104437104437106438106440106440105447103446102445103444104444105444105445106448000000104450103450104448104447106448104450104450105453103452104451104450104450105450105451105454103454103453103452104451104451105451105454105455105456102455102455103453103454105455105456105457104458000000102455102455104454105456105457106457000000000000000000102455105456105457106457000000105468103468000000000000000000000000105467105468103476102476102475103473104473104474104474105475103477102476102476102475104474104474105475105476103478102477102476102476103476105475105476104478103485102485102484102482103482104482104483105484103486102485102485102484103483104483105484104486105493102492102492104490104490104490104491105492105493103495102492102492104491104491105492105493105494104495103495102492105493105492105493105494105498104499104497104496105496105496105497105498)
 (.leaf 103502103501103500104500104499106499105500104502104509103507103506103505104505105505105506104509103508000000103507103506104506105506104509105510103523102524102523102521103522104521105523104523104537102536102535102534104533104534105536000000103537103538102536102535104534105536000000105538103541000000103541103540103540104538105539105540103541103543000000103541104539105539105540105543103543000000103543000000103541105540105543105544103544102544000000103543103541105543105544105545103545102544102544000000103543105544105545000000000000102546102544102544103544105545000000105547103548103548103547000000104546104547105549000000000000103549103548103547104547105549000000105549104555103555103552102551104551106552000000105553105555000000103555103552104552000000105553105554104560103560104559104557105557105558105559106560103565103565103564102562105563106563105564106565103565102566103565103564103564105564106565106566103565103567102566103565103565106565106566104566103568102568102568103567103565104566105568105569103569102568102568102568103567105568105569105570103569103569102568102568103568105569105570104571103572103572103569102568103569105570104571104571104575103575103572102573103572104572104572106574104576103576103575103572104572104572106574106576104580104580103579103578103578106577105579105580105580103581104580103579103578105579105580106580105583103584103581104581105581106580105581106583105584104584103584103581105581105581106583105583103588103588103587104585105584106585106587105588104589103589103588103587104585106587105588105589))
 (.node 1 (.leaf 104590103590103589103588103588105588105589104590103595103595102593102593103593104592105594104595000000000000000000000000000000000000000000106601000000000000000000000000000000000000106601104602000000000000000000000000000000104602000000000000000000102611000000000000000000000000000000000000000000104612102611000000000000000000000000000000000000000000000000104616104615105615105616000000000000000000000000000000000000105616000000000000000000000000000000000000000000000000000000104637000000000000000000102640103641104640000000000000105118103116103116000000000000000000000000106116104117104117103116103116105115000000106116105118106119104119104118104117104117105118105118106119106120103122104119104118105118105118106119107120106123105123105123103122106120107120106121107124000000000000000000105123106123107124000000107126106126104125000000000000106124000000107126107127104127000000104125000000000000107126107127107127000000000000000000104125106126107127107127000000106129000000000000000000104127107127000000000000106130000000000000000000000000000000000000107131106131103132105130000000106130107131107131107132106135103135103133103133105132105132107134106134106136104137103135103133105133107134106134107136106136105138104137103135106135106134107136105137106144105144104142103142105141105141106142106143105148105148104147104146106144106144107146107147106148105148105148104147105145107146107147107148105151103151104150105148106148107148107150107151105152103152103151104150105148107150107151107151105155104155103153103153104153106153106154105155)
 (.leaf 105156103155104155103153104154106154105155106156106163104163103162103161106161107161107162107163106165105165104164104163106163107163106164106165106166105165105165104164106163106164106165106166106168105168105168105166106166107167106168107168104172103172103171103171106170107169106170106173106173103173103172103171105170106170106173107174104175103174103173103172104172106173107174107174104175103176103174103173106173107174107174107175105177104177103176103174104175107174107175106177106178103177104177103176104175107175106177107177106179104180103178103177106178107177107178107179105181105181104180103178106178107178107179107180106181104180105181104180106179107179107180107180104185104184104183105182105182105183105183107185106191104190103190104188105188107188106189106190104192104191104190103190105189106189106190106191104192103192104191104190106191106190106191106192104194103194103192104191104192106191106192107193104194103194103194103192104192106192107193106194104195103195103194103194104194107193106194106195104198103197103195103194104194106194106195106198104198103197103197103195104195106195106198105198105201104201104198103197104198105198106200106201105204104204104203104202106202106202106203107204000000000000000000000000000000107206000000000000000000000000000000000000000000000000000000000000000000000000000000000000000000000000000000000000000000000000000000000000000000000000000000000000000000103343000000000000000000000000000000000000106344105345103343000000000000000000000000000000000000105345105345103343000000000000000000000000))))
 (.node 4 (.node 2 (.node 1 (.leaf 104348104348104347105347106347000000107347106348104349104349104348104347105347107347106348106351104353103352103352104350105350000000000000000000104354104353103352103352105351000000000000000000105356104356104353103352104353000000000000000000000000104357104356104353104354000000000000000000000000000000000000000000000000000000000000105373000000000000000000000000000000105374000000000000000000000000000000000000000000000000106378106379000000000000000000000000000000106378106379105380000000000000000000000000000000106379105380000000000000000000000000000000000000000000000000000000000000000000000000000000000000000000000000000000105390105390000000105386000000000000000000000000000000000000105390000000105387000000000000000000106405104403104402000000000000000000000000000000000000000000104403104402000000000000000000000000000000000000000000104403106405000000000000000000000000000000000000000000000000000000000000000000000000000000000000000000000000000000000000000000000000000000000000000000000000000000000000000000000000000000000000000000000000000000000000000000000000000000000000000000000000000000000000000000000000000000000000000000000000000000000000000000000000104414000000000000000000000000000000000000104415104415104414000000000000000000000000000000104416104416104415104414000000000000000000000000106417104417104416104415104415000000000000107418104420000000104417104416104416000000107418107420105421000000000000104417106417107418107420107420106421103421000000000000104420107420107420000000104425104425105424105422106422000000000000106423)
 (.leaf 104427000000104426104425104425106423106426107427104427000000000000104426104425106426107427107427106429104428104427000000104427107427000000000000106430105430104428104427105427000000000000000000106436104436104433105433105432107432107434106436106438104437105436105436105435107436107438107438106440104440104437105436106438107438107438106438106440104441104440104437106438107438106438106441106441104442104441104440106440106438106441107441106442104443104442104441106440106441107441106441106443105444104443104442106441107441106441106442106445104443105444104443106442106441106442106445106448105447104445104444105444107446107446107447104450104450104447105447106448107447107447106448104450000000104450104447106448107447106448107450105454105453104451104450105450105451105451106452000000000000000000104458106457106458105459106458106472104472104471104470105470106472107473106472104474104473104472104471105471107473106472106473104474104474104473104472106472106472106473106474104478103478103477103476105475106475106478107479104479103479103478103477105476106478107479107479104480103479103479103478104478107479107479105481104480103480103479103479104479107479105481105481104483103483103482103481104481105481105482105484104487103487103486103485105484105484105485105487104490103489104488103487104488105488105490105490106499104499105498105498105497106497105498106499104503104503104502103502104502105501105502106503106504104504104503104502104502105502106503107504104509104509104506104505105505106505106506106509105510103508104509104506105506106506106509107509))
 (.node 1 (.leaf 104510104511103508104509104509106509107509106509104512104513104512104511104510106509106512105512104516103516103515103514104514105513105513105515104518103518103517103516104516105515106517106518104519103519103518103517104517106517106518105519104520103520103519103518104518106518105519105520104528103529103528103527104527105527105527106528104529103530103529103528104527105527106528106529104530103531103530103529104528106528106529105531104533104532104531103531104530105531106533105534104534104533104532104531105531106533105534105534104538000000103537104537000000105536105536105538105543103541103541104539105539105540106540106543105544103543103541103541105540106540106543106544106552104551104550000000105549105550106550106551000000104552104551104550106551106550106551106552105558105557104557105555105554106554000000106556106562104562104561104560106560106560000000106560106563105563104562104561106560000000106560106563105564103564105563104562106562106560106563107564104566103565103565103565106565107564107565107566105568103567103565103565106566107565107566107567105569103568103567103565104566107566107567105568104572104572103572103572104571105571105571106574106574104575104572103572104572105571106574107575106576104576104575104572104572106574107575107575104577000000104576104575106574107575107575106577106577103578000000104576106576107575106577107578105579103578103578000000104577106577107578106579105580104580103578103578106577107578106579106580106583105583105581105581106580106580106581107583106587104585105584105584105583107584106586107586)
 (.leaf 105588103588104585105584106585106586107586107587105589104589103588104585106587107586107587106589105592103592104591104590104590105589106591105591106601000000000000000000000000105599107600000000104602000000000000000000000000107600000000000000000000000000000000000000106601000000000000000000000000000000000000000000104602000000000000000000000000000000000000000000000000000000000000000000000000000000000000000000000000000000000000000000000000000000000000000000000000000000000000000000104614104614104613000000000000000000107613105615000000000000000000104615105615107616107616000000000000000000000000000000105616107616000000000000000000000000000000000000000000000000000000000000000000000000000000000000000000000000000000000000000000000000000000000000000000000000000000000000000000000000000000000000000000000000000000105637104637000000000000000000000000000000105637107638104639104638000000000000104637107638107638107639000000000000103641104638104639107639107641000000000000000000000000103641104640107641000000000000000000000000000000000000000000000000000000000000000000105115000000000000000000000000000000000000105118104117105118105115000000000000106116107117105118105118104117105118106116106116107117107120107124106123105121106120107120107120107121108123107127106126000000106124000000000000000000000000000000000000104127106126107127000000108127107127000000106129000000104127107127108127107127000000105132105132106131106131107131107130107131108133107134105133105132106131107132107131108133107133106140105138105137106136105137107136107137108138)))
 (.node 2 (.node 1 (.leaf 105140105139105138105137106137107137108138106140105141105141105140105139105140106140107140106142107146105145106144106144106143106144106144107147107147105148105145106144106144106144107147108147107148106148105148105145107146107147108147108147107151105151105148106148107148108147108149107151107151105152105151105148107150108149107151108151106153104153105152105151107151107151108151108152106154104154104153105152107151108151108152107154106157105157105156105155105155108155107156106156106164106163106163105162107162108162107163108164107169106170106170106168107168108169108169107169106173104172105170106170107169107169108170106172107175104175104175106173107174106173107175108176106177105177104175104175107174107175108176107177107177106178105177104175107175108176107177108177107180106181105181106179107179108179108180107180105183105182105181106181107180107180107181106183105186105186105185104185107185106184107185107186107188105187105186105185106185107185107186107187107188105188105187105186105186107186107187106189107193104194104192104192106191107191108192108193106198104198104195104194106194106194106197107198106201105201105200104198105198108199108199107201107206105206105205105204107204108204107205108206000000000000000000105206107206108206000000000000000000000000000000000000107206000000000000000000000000000000000000000000000000000000000000000000000000000000000000000000000000000000000000000000000000000000000000000000000000000000000000000000000000000000000000000000000000000000000000000000000000106344000000000000000000000000000000000000)
 (.leaf 106351104349104348105347107347000000000000000000000000105350104349104348106348000000000000000000000000104353105351105350000000000000000000000000000000104354104353105351000000000000000000000000000000105356104354104353000000000000000000000000000000000000105356104354000000000000000000000000000000000000000000105356000000000000000000000000000000000000000000000000000000000000000000000000000000000000000000000000000000000000108361107362000000000000000000000000000000108361107362107363000000000000000000000000000000107362107363107364000000000000000000000000000000107363107364106367000000000000000000000000000000107364106367107368000000000000000000000000000000107368106369106369000000000000000000000000000000106369107369106372000000000000000000000000000000107369106372107373105374000000000000000000000000107373106372106375000000000000000000000000105373106372106375107376106378000000000000000000000000107376106377106377000000000000000000000000000000107381000000000000000000000000000000000000000000000000000000000000000000000000000000000000000000000000000000000000000000000000000000000000000000000000000000000000000000105390105387000000000000000000000000000000000000000000105390105387000000000000000000000000000000000000000000105390000000000000000000000000000000106405000000000000000000000000000000000000000000000000106405000000000000000000000000000000000000000000000000000000000000000000000000000000000000000000000000000000000000000000000000000000000000000000000000000000000000000000000000000000000000000000000000000000000000000000000000000000))
 (.node 1 (.leaf 104415000000000000000000000000000000000000000000104416104415000000000000000000000000000000107420104420106417104416000000000000000000000000107420105421104420106417107418000000000000000000000000106421105421104420107420000000000000000000106426104425104425105424000000000000000000000000107427104427104425104425106423000000000000000000000000105427104427104427107427000000000000000000000000106429105427104427107427000000000000000000107432105432105431106431000000000000107431108434107434105433105432105431000000107431108434108434106436106436105433105432107432108434108434108435107436105435106436105433107434108434108435108436107438106438106438105435107436108436108437108438106441106440106440106438107438108438108439108440107446105444106445106443106442108442108445108446107447106448105445105444107446108446108446108446107447106448106448105445107446108446108446107447107450104450104450106448107447107447108449107449105451105450104450104450106448108449107449106452105451105451105450104450107450107449106452107453105455105456105455105454106452106453107455106455106458106457105457105456105455106455107455108457000000000000000000000000106458108460106459107460000000000000000000000000105460106459107460106462105470105469105468105467106467107469108469107469106472105470105469105468106468108469107469107472107473105471105470105469105470107469107472108472106478105476105475104474106474107474107475107476)
 (.leaf 107479104478105476105475106475107475107476107479105481104480104479104478107479107479107480107481105481104480104480104479107479107480107481107482105481104481104480104480105481107481107482106482105490104489104488104487105487106487107489106489105491104490104490104489105490106489106489106491105494105494105493105492106492106493107493106495105496105496105495105494105494106495106495106497105501105500106499105498105498106498107499106501106509104509105506105505106505107507108508108508107509105510104509105506106506108508108508107508106512105512104510105510107509107508108509106511105513104515104514104512105512106512106512107513105515104516104515104514105513106512107513107514106517104517104516104515105513107513107514106516105521104521104520104520105520106519106521106521105525104525104524104523105523106523106523106525105527104527104527104526105526106526106526106528106533105531104530104529106529106530107530106532105535105536104534104533105534108534108534108535105536000000105536104534105534108534108535000000105536105538000000105536105535108535000000000000105538104538105538000000105536000000000000000000105539104538104538105538105536000000000000107538106543105543105540105539105540106539107540106543106544105544105543105540106540107540106543107544105550105549000000105549105549106548106550106550000000106556105554105553106553107553107554107555000000105559105558106556000000107555107556107559106560106560105559105558106556107556107559107560000000106560106560105559000000107559107560107561106563106563106562106560000000107561107562107563))))))))))
 (.node 256 (.node 128 (.node 64 (.node 32 (.node 16 (.node 8 (.node 4 (.node 2 (.node 1 (.leaf 107565106566106565105564107564108564107565107566105568105569105568104566107566107567107568106569105571104571104571105570106568106569107569107572105571104572104571104571105571107569107572106572107575106574104572104572105571106572108574107575106577104577106576106574107575107575108575107577106580105580105579106577107578108578108578107580107583106583105581106580106580107580108582107582106586106585105583106583107583107582108584106586105589104590105589105588107587107588107589107590105597104596105596104595105595108594108595108596105598000000000000104596105597108596108597106598107600000000000000000000105598106598107600000000000000106601000000000000105599107600000000000000000000000000104602106601000000000000000000000000000000000000000000104602000000000000000000000000000000000000000000000000000000000000000000000000000000000000000000000000000000000000000000000000000000000000000000000000000000000000000000108613107613105613000000000000000000000000108613107613107616105615104614105613107613107613106614108616107616105616105615104614105615106614108616107616000000000000105616105615107616108616107616000000000000000000000000105616107616107616000000000000000000000000000000000000000000000000000000106634105637000000000000000000000000106634106636106636107638105639104637000000105637106636107638107639107639104639105639104637107638107638107639108640107641104640104639105639107638107639108640108641000000000000104640104639107639108640108641000000000000000000000000104640107641108641000000000000106116106116000000000000000000000000000000000000)
 (.leaf 107120105118105118106116106116000000107117108118000000106119105118105118107117107117108118107120108123107124106121107120107120107120108121109122000000000000107124106121107121108121109122000000000000107127107126000000000000000000000000107126000000000000000000107127108127108126108127000000108130107131000000000000107127108127000000109130108138106140106137105137107136107136108137109138106140105140106140106137107137108137109138109139106142105141106142105140106140109139109141107142106144106144106143106142107142107143107143109145107147107146106144106143106144107143109145109146107151107151107150107148108147109148108150108151107154106154106153107151108151109151109153109154108155105155106154106153108152109153109154108155106156106157106156105155108155108155108156108157107159106159106158106157106156108157108158107159107160106160106159106158106158108158107159108160107166106166106165106164108164109164107165108166108170106170107169107169108169109170109170109171106172106173106170107169107169109170109171109172106173107174106173106170108170109171109172109173107175107174107174106173106172109172109173108175108177107177106177107175108176109176108177109177106183105183106181107180107180108180108181108184106183105183105183106181107181108181108184107184106190106189107188107188107187107188108188109189108190106190106189107188106189108188109189108190108192106192106191106190108190108190108191108192106197106195106194107193108193108193107194108197107198106198106195106194106194107194108197109198108199105198106198106195106197108197109198108199))
 (.node 1 (.leaf 107201106201106200105198108199108199109199108201108201106202106201106200108199109199108201109202108204107204106203106202108201109202109203109204107205106205107204106203108202109203109204108205000000000000000000107206000000000000000000000000000000000000000000000000000000000000000000000000000000106348107347000000000000000000000000000000000000106351106348107347000000000000000000000000108361000000000000000000000000108359107360108361107368000000000000000000107364107365108365108368106369000000000000000000106367108365108368109369106372000000000000000000106369109369109370109370107373000000000000000000107369109370109370108373106372105373000000000000106372109370108373108374107376000000105374105373106372108374000000108376106377000000000000105374106375000000108376107377106380105380106379106378106377107377109379108380107381000000105380106379106379109379108380108381000000000000000000105380106380108380108381000000000000000000000000000000000000000000000000000000000000000000000000000000000000000000000000000000000000000000000000000000000000000000000000000000000000000000000000000000000000000000000000000000000000000000000000000000000000000000000000000000000000000000000000000000000000000000000000000000000000000000000000000000000000000000000000000000000000000000000000000000000000000000000000000000000000107420107420107418000000000000000000000000000000106426106423000000000000000000000000000000000000107427106426106423000000000000000000000000000000107427107427106426000000000000000000000000000000000000000000107427000000000000000000000000)
 (.leaf 108434107434107432000000107431107432108434108435108436107436106436107434108434108435000000108437108438107438107438107436108436108437108438108439108440106441106438107438108438108439109440108441108441107441106441106438108439109440108441109440108442106442106441107441108441109440109442000000108445106445106442106441107441109442000000109445108446107446106445106442108442000000109445109445108446107446107446106445108445109445109445109446108449106448107447107447108446109447108447108448107453105451105451107450107449108449107450109452106453106452105451105451106452107450109452108454106455105455106455106452106453108454108455107456108459105459106458105455107455107456108458108459108460106458105459106458108457108458108459108460106459105460106458105459108459108459108460108461106462000000000000105460106459108461109462109462106463000000000000000000107460109462109462109463000000000000000000000000106462109462109463109464106465000000000000000000106463109463109464109464106466000000000000000000000000109464109464107466107469106467106466000000106466107466108468108469108469106468106467106466107466108468108469000000107472106472105470106468108469000000108469109471108472107473106472105470107469108469109471109472107480107479107479106478107476107477108477107479106484105484105482105481106482107482108484108485106485105484105484105482106483108484108485107485106487105487105485105484106485107485107485108486107489105488105487105485106486107485108486107488106495105496105494106493107493107494107496107497106498105498106497105496106497107497108497107499)))
 (.node 2 (.node 1 (.leaf 106501105501106499105498106498107499109500107501108503105502105501105501106501107501109502109502108503106503105502105501106502109502109502109503107507106505107504106503108503109503109504109506106511106512106509107509107508109508108509109511106512105512106512106509108509108509109511108511106519105520105519106518107516108518107517108520106521105521105521105520106519108520107519108520106522105522105521105521106521107519108520108521106523105523105522105521106521108520108521107523106525105525105524105523106523107523107523000000106526105526105525105524106523107523000000108527106526105527105526105525106525000000108527000000106528105527105527105526106526108527000000000000106529106528105527105527106526000000000000000000106530106529106528105527106528000000000000109529106532106533105531106529106530109529109531108533108534105534106533105531107530109531108533108534108534105534105534106533106532108533108534000000108535105535105534105534108534108534000000108534000000105536105535105534108534000000108534109536000000105536105536105535108535108534109536107537106539105540105539105538000000000000108538000000106543106543106540105540106539000000108542000000107544106544106543106540107540108542000000108544106544106545106544106543106543000000108544108545106546106547105546106545106544108545000000000000106547105548106547105546106545000000000000108548106548105549105548106547106546000000108548108549106550105549105549105548106547108548108549107549106551106550105550105549106550107549108549108550106552106551106550105550106550108549108550108551)
 (.leaf 106552106552106551106550106551108550108551108554107559000000106556000000107555107555107556108559107560106560000000106556107556107556108559109560107572105571105571106568106569107569107569109571106572105571105571105571107569107569109571108573107575107575106574105571106572108573109574109575108575107575107575106574108574109574109575109575108578107578106577107575108575109575108575108578108581107580106580106579108578109579108578108581108582106581106580107580108581108581109580108581107587107586106586107584108584109585109586109586106593105593105591106591106590108591107592109593108594105595106594105593106593109593109593108593108595106596105595106594106593109593108593108594108596105597106596105595108594108593108594109596108597105598105597106596108595108594109596109597106598105598105598105597108596109596109597107598000000107600105599105598106598107598000000000000000000000000000000107600000000000000000000000000108613000000000000000000000000000000000000000000106614105615107613000000108613000000108613109615108616107616105615107613107613108613109615109616000000000000107616107616108616109616108616000000000000000000000000107616107616108616000000000000000000000000000000000000000000000000000000000000000000000000000000000000000000000000000000109633106634000000000000000000000000000000109633109634106636000000000000000000000000109633109634109635106636105637000000000000106634109634109635109637107638107638105637000000106636109635109637109637107639107638107638105637106636109637109637108639000000000000107641107639108640000000108641000000))
 (.node 1 (.leaf 107117107117106116000000000000000000000000000000107120000000107120107117107117000000108118000000109122108123107121107120107120108120109121109124000000000000000000108123109122109124000000000000107126000000000000000000000000000000000000109127000000000000107127108127108126000000109127110130109130108130000000107127108127109127110130110130107132107131107130108130109130110130110131110132108137107135107134107133107134110135110135110136107136107136107135107134108134110135110136108137109139106140108138107137108137109137109138110139109141107140106140108138109138109138110139109140107142106142107140106140109139110139109140110141107143107142106142107140109141109140110141109144107143106144107142106142107142110141109144110145109145106144106144107142107143109144110145110145109146107147106144106144107143110145110145110146109146108147107147106144109145110145110146109146108150108149108147108147109146109146109149109150108155108155107154108152109153109153109154108155108156107156108155107154109154109154108155108155108161107161107160107159107159109159109160110161108167107167107166107165107165109165109166109167109172106172108170107169109170109171109172109173109173106173106172108170109171109172109173109174108175107175106173106172109172109173109174110175109176108176107175106173109173109174110175109174109179108179107177108177109177110177110178110178108184106183107181107180108180109180109181108184107184106183106183107181108181109181108184108184107186107186107185106184108184110185110185109186107188107187107186107185108185110185109186110188)
 (.leaf 109189106190106189107187107188110188110188109189108197106197106194108193108193108194109196110197109198107198106197106194107194109196110197110198109199108199108199107198109198110198110198110200109202108201107201108199109199110200110201109202108205107205108204108202109203110202109204109205000000000000000000000000000000000000000000000000000000000000000000000000000000000000000000000000000000000000000000000000000000000000109347108349000000000000000000000000000000000000000000108359000000000000000000000000000000000000108359108359107360000000000000000000000000108359109359108361107362107362108361000000107360108361109361109364108365107363107362108361108361109361109364109365107365107364107363107362107362109364109365108365108368107368106367107364107365108365109367000000109369106369107368106367108365109367000000109369109370107369106369106369109369109369000000109369109370106372107369106369109369000000109369110371108373107373106372107369109370109369110371110371108374106372107373106372109370110371110371110373107377106377107376106375000000110374110374110376109379106379106377106377107377110376109378109379108380106380106379106377107377109378109379108380108381107381106380106379109379109379108380108380000000000000000000000000000000109382000000000000000000000000000000000000000000000000000000000000000000000000000000000000000000000000000000000000000000000000000000000000000000000000000000000000000000000000000000000000000000000000000000000000000000000000000000000000000000000000000000000000000000000000000000000000000000000000000000000000))))
 (.node 4 (.node 2 (.node 1 (.leaf 107432107431000000000000000000000000000000108432108435108434108434107431107432108432109432108434109445108446108445108442000000108443109445110446107450106452107449108449108448110448110449110451109452107453106452107449108449110449110451109451108454106453107453106452107450110451109451109452108455107455106453107453109452109451109452109455109463106463106462107460109462109462110463110463109464000000106463106462109462110463110463110465109464106465000000106463109463110463110465110465107466106466106465000000109464110465110465110465108468107466106466106465109464110465110465109466108469107469107466106466107466110465109466110468109471107472107469108469000000110469109471110472109472108472107472107469108469109471110472110472107474107473107472108472109472110472110472110473107475107474107473107472107473110472110473109474107476107475107474107473107474110473109474110476107477107476107475107474107475109474110476110477107479107480107479107476107477110477110478109478107480107481107480107479108477110478109478109481108482107482107481107480107479109478109481109482107482106482107482107481107480109481109482108482108485106484106483106482107482108482109484108485107488107489106487106486107485108486109486109487107489106489107489106487108486109486109487109488107490106489106489107489107488109487109488109489107492106491106489106489107489109488109489109490107492107491106491106489107490109489109490108493)
 (.leaf 107493106493107491106491107492109490108493108493107496106495107493106493107493108493109495109496107497106495106495107493107494109495109496108497107497106497106495106495107496109496108497109496107499106498106498106497107497109496110499109498109500107499106498106498108497110499109498110500107501106501107499106498107499109498110500110502109502106502106501107499109500110500110502110502109502108503106502106501107501110502110502110503109504107506108503108503109502110503110504110505109506107507107506108503109503110504110505110505109507108508107507107506109504110505110505109506108509108508108508107507109506110505109506109507107512106512106512106511109511108510109511109512108515107513106512106512108511109511109512110515107515107514107513106512107512109512110515110516108518107516106516107514107515110516109515108517107519106521106519106518107517109519000000109519107523106523106522106521108520109522000000108524107523106523106523106522108521000000108524110524108527106526106525106523107523110524109526000000000000106526106526106525000000109526000000000000000000106529106528106526000000000000109529000000109529106530106529106528000000109529000000109529109531107530106530106529000000000000109529109532108533106532107530106530109529109529109532000000108534108534106532107530109531109532000000000000107537000000000000108535108534109534000000109538000000000000000000000000109536000000109538000000000000106539107538000000000000000000109540000000108542107540106539107538108538109540000000109540000000106543107540106539000000000000109540109543))
 (.node 1 (.leaf 108545106544107544106543000000109543109544109545108548106547106546106545000000109546109547109548108549106548106547106546000000109547109548109549108554106552106552106551108550108551109553110554108555107553106552106552108551109553110554110554108559107559107556107555107555108556109556109559109560107560107559107556107556109556109559109560108564108564107563107562107561109560109561108564108565107565108564107563107562109561108564109565107569106569106569107568108566108567110569110569107569107569106569106569107568110569110569110570109571107572107569106569107569110569110570110571108573106572107572107569107569110570110571109571109574108574106572107572109571110571109571109574108578108578107577108575109575110576110576110577109579108578108578107577108575110576110577109579108581108581107580108578109579109579110579110580109580107580108581107580108578110579110580109580109585108584107582108582108581109581109584110585109586107587106586108584109585110585110586109587109587107588107587106586109586110586109587109588109588107589107588107587109586109587109588108589107590107590107589107588109587109588108589109590109593106593106593106592107592109592109593110593000000107600106598108597109597110597000000000000000000000000107600106598107598000000000000000000000000000000000000107600000000000000000000000000000000108613000000000000000000000000000000109612109615106614107613108613000000109612110615109616109616108616106614107613108613110615109616109617000000000000107616108616109616109617000000000000000000000000000000107616108616000000000000000000)
 (.leaf 110628108629000000000000000000000000000000108630110631109631109633000000000000000000000000110631109631000000109634106634000000000000000000109631000000109633109635106636106634000000109633000000109633110635109637106636106636106634109634109633110635110636109637107638106636106636109635110635110636000000108639107639107638106636109637110636000000000000000000108640107639107638109637000000000000000000000000107117000000000000000000000000000000000000108118108118107117000000000000000000000000110118000000107120108118107117000000000000110118110119108120107120107120108118108118110118110119110120000000000000109122108121109121111122110124000000109127107126000000000000000000000000110126109127000000108126107126000000000000110126109127109127110130000000108127108126000000109127111128111129110130109130000000108127109127111128111129111131110132107132107131109130110130111131111131111132110132108132107132107131110131111131111132110132110135107134108132107132110132111132110132110135110135108134107134108132110132110132110135110136110136108137108134107134110135110135110136111136108137107136108137108134110135110136111136110138109144107143107142109141109140110140110141110142110145107143107143107142110141110141110142110145109149109148109146109146110146111146110148000000108156108157108156108155108155110155110156110157109158108158108157108156108155110156110157110158)))
 (.node 2 (.node 1 (.leaf 109159107159108158108157108156110157110158110159109163108163109162108161110161110161111161111163109177108177109176108175110175111175111176111176110185108184107184108184108184109183109183110184110185108185108184107184108184109183110184110185110188107188107186108185110185110185111187111187110188108188107188107186109186111187111187109189108194108193108192108191108191111191111194111194109196107194108193108192109192111194111194111196110197108197107194108193108194111194111196111197110198108199109198108197110197111197111197111198109202109202108201109199110200111200111200111201110202109203109202108201110201111200111201111203000000000000000000000000000000000000000000000000000000000000000000000000000000000000000000000000108349000000000000000000000000000000111347110348000000000000000000000000109347111347110348110349000000000000000000000000108349110348110349110350000000000000000000000000000000110349110350109352000000000000000000000000000000109353109355110354000000000000000000000000000000110354109357109357108361107360108359000000108359109359111360111361109364107362108361107360108361111361111361110364109365108365107362108361109361111361110364109365000000108368108365107365108365000000110365110368000000109369109369108368000000110368110369110370110371108373109370109370109369110371110372111372110373108374108373109370110371110372111372110372110374000000108374108373110371111372110372111374110374108376000000108374110373110372111374110374110376107377108376000000110374111374110374110377109378107377107377108376110374110374110377111377)
 (.leaf 109379109379107377107377110376110377111377109379109382000000108381108380108380111380110381000000000000000000000000108381108380110381000000000000000000000000000000000000000000000000000000000000000000000000000000000000000000000000000000000000000000000000000000000000000000000000000000000000000000000000000000000000000000000000000000000000000000000000000000000000000000000000000000000000000000000000000000000000000000000000000000000000000000000000000000000000000000000000000000000000000000000000000000000000000000000000000000000000000000000000000000000000000000000000000000000000000000000000000000000000000000000000000000000000000000000000000000000000000000000000000000000000000000000000000000000000000000000000000000000000000000000000000000000000000000000000000000000000000000000000000000000000000000000000000000000000108432107432000000000000000000000000000000110431108435000000108435108434109432109433109433111436108437108437000000108435108434109433111436111436108437108438108437000000108435111436111436110438109439108439108438108437108437111436110438109439000000109440108439108438108437110438109439110440110442109442109440108441110441000000111442111442109445109445000000109442110442111442111443110445110446109445109445000000108443111443110445110446110448108448108447109447110447111447111448111448110449108449108448108447110448111448111448111450110451107450108449108448110448111448111450110450108455107456108455108454109452111454109453111454109458108458107456107456108455111454111455109457110460108461108460108459110459109458110460110461))
 (.node 1 (.leaf 109462109462108461108460110460110460110461110462110463109462109462108461110460110461110462110463110465107466109464109464110465110465000000111467110468108469108468107466110465111467111468111468110469000000108469108468109466111468111468111468109471108469000000108469110468111468111468110471110472109471108469000000110469111468110471110472110473107474107473109472110472000000110472110473110476107476107475107474110473110473000000110475110477107477107476107475109474000000110475110476110478108477107477107476110476110475110476110477109481107480107479108477110478110477111479111480109482108482107480107479109478111479111480110482108485108485108484107482108482109482110482109484108493107492107492107490109489111489110490110491109495107494107493107492108493110491109492110493109496107496107494107493108493109492110493109496110499108497107497107497108497110497109498110499110500109500107499108497110499110499110500111501110502109502107501109500110500111501111501110501110505109506109504109503110504110503111505110505108510108509109508108509109507110507110508110511108510109511108509109508108509110508110511110512110515108515107512108511109511109511109512110513110516107515108515107512109512109512110513110514108517108518107515107515110516110514111516110518109519107517108518107515109515111516110518000000000000108520107517108518108517110518000000000000109522108520107519108520000000000000000000110520000000108521108520107519109519000000110520110523110524107523107523108521000000110523000000000000109526000000107523107523108524000000000000109526)
 (.leaf 108527000000107523110524000000109526109526109529000000000000108527000000109526000000109529000000000000000000000000000000000000109529109529000000109536108534000000000000000000110536110537000000000000107537109536000000110537000000110537000000000000108538000000000000110537110540000000109543000000108542000000000000000000110540110543109544108544000000108542109540110540110543111544108551108550108549107549110549111550111550111550109553108551108550108549110551111550111550109553110554108554108551108550108551111550109553110554110555108556108555108554110554110554000000110556108556107555108556108555110554000000110556111557109559108559107556107555108556111557111557109558108564108564107562107561109560110560111562110562109565108565108564107562109561111562110562110565109566108566108565108564108564110562110565110566110569107569107568108566108567109567110569110570110570107569107569107568110569110569110570110571110571109571107569107569110569110570110571110572109574109574108573109571110571110572111573110574109575109575109574108573109571111573110574111574110577108578108575109575110576111576110577111578109579109579108578108575110576110577111578110579110579108578109579108578110577111578110579110580109584108582108581109580109580110582109583110584109593109593107592108591108590111591110592110593109596108594108593109593110593110594111594111595110596109596108594108593110593111594111595111596000000000000107598109597110597111597000000000000000000000000000000107598000000000000000000000000110615108613000000000000000000000000000000000000)))))
 (.node 8 (.node 4 (.node 2 (.node 1 (.leaf 109616109615108613000000109612000000000000000000000000000000000000108616000000000000000000000000000000000000000000000000000000000000000000110624000000000000000000000000000000000000110624110627000000000000000000000000000000110624110627110628110628000000000000000000000000110627110628000000108629000000000000000000000000110628000000000000108630000000000000000000110628000000000000000000110631000000000000000000108629000000000000110630000000109633000000000000110631110630110631000000000000109637109637109635110635000000000000000000000000000000108639109637000000000000000000000000000000108641000000108639000000000000000000000000000000000000108641000000000000000000000000000000111122109121108120000000110119000000000000000000110124109124109121108120110120000000000000111122000000000000109124109121111122000000111122111123111128109127000000109127109127112125111128000000111129110130109127000000109127111128000000000000111131110130110130109127111128000000000000111131110135110135110132110132111132111131111132112134110136110135110135110132110132111132112134112135109138109137108137110136111136112136112137112138110145110145109144110141110141110141111142111145110146110145110145109144110142111142111145111146000000109149109146110146111146112146110148112147110151110150109150109149000000112147112150111151110154109154109153109152111151112151112152111154110155108155109154109153111151112152111154111155111161110161110161109160111160111160111161111162111163110164109163110161111161111162111163112164110165109165110164109163111163111163112164112164)
 (.leaf 111167109168109167109166111165111166112166111168109168109169109168109167111166112166111168112168111169109170109169109168111167111168112168112169109170109171109170109169109168112168112169111171109172109172109171109170111169112169111171112172110173109173109172109171109170111171112172112173111173109174109173109172109172112172112173112174111176109174110175109174111173112174112174112175111177110177109177109174111176112175111177112177111180109180109179110178111179112179111179111180109182109181109180109179110179111179111180112183109183108184109181109180111180111180112183112183111187110188109186110185110185112186110186112187111189109189110188110188111187112187111188111189109191109190109189110188109189111188111189111190111191108191109190109189111189111189111190112191111194109192108191109190109191111190112191111194111194108194109192108191111191112191111194112195111196109196108194109192111194111194112195112195111197110197109196108194111194112195112195111197111197110198110197109196111196112195111197112198111200110201110200110198111198112198112200112201111204109205109204110202111203112201111204000000000000110206109205109204111203111204000000000000000000000000110206109205111204000000000000000000000000000000000000000000000000000000000000000000111347109347000000000000000000000000111346111347109352000000000000000000110349111349111350111353109353000000000000000000110350111350111353110354109355000000000000000000109352111353110354110354109357000000000000000000109355110354111354111355109357000000000000000000110354111354111355110358))
 (.node 1 (.leaf 109358108359000000000000109357111355110358111359111360109359108359108359109358111359111360111361111361108361109359108359109359111360111361000000111361109361108361109359111360111361000000111361110364109364109361108361111361000000111361110364109365109365109364109361111361111361110364110364110368000000109367108365000000111366111367111368110369109369000000109367110365111367111368111369110377110376110374110374111374111373111374111375111380108380109379109378111377111376112378111380110381108380108380109379109379112378111380000000000000109382108380108380111380111380000000000000000000000000000000109382000000000000000000000000000000000000000000000000000000000000000000000000000000000000000000000000000000000000000000000000000000000000000000000000000000000000000000000000000000000000000000000000000000000000000000000000000000000000000000000000000000000000000000000000000000000000000000000000000000000000000000000000000000000000000000000000000000000000000000000000000000000000000000000000000000000000000000000000109433109432108432000000000000000000110433110433111436108435108434109432109433110433111435111436111436108437108435108434109433111435111436111437110438108437108437108435111436111436111437000000109439109439108437108437111436111437000000110439110445109445108443110442111442111443111444112445110446110446109445108443111443111444112445111446109453109455109452109451109451110452111454112454111454108455109455109452111454111454112454111454111455108456108455109455109453112454111454111455109457109458108456108455111454111454111455111456)
 (.leaf 109458110459109458108456111455111455111456110458000000110465110465110463111463000000111465111466111468109466110465110465000000111466111467111468111468110468109466110465111467111467111468000000000000109474110473110472110472110472110475111474111480109481109478110478110477110478111480111481110482109482109481109478111479111480111481112481109482108482109482109481111480111481112481111481109484108485109484108482109482111481110482111483109485108486108486108485109484111483111484111485109487109486108486108486110484111484111485111486109488109487109486108486109485111485111486111487109489109488109487109486109487111486111487111488111489109489109488109487109488111487111488112491109492108493108493109490110490112491112492111492109496109496109495108493109492111492112494111494110497108497109496109495110493112494111494111497109498109496108497109496109496111494111497111498111507109506110505110505111505111504111505112507110511108510108509109507110507111507111508111509110512108510108510108509110508111508111509110512000000109519108517109515111516111515111516111517000000109519000000109519000000111517000000112520110523000000109522109519000000112520000000111523000000108524000000109522110520000000111523000000109526000000109526110524000000000000111526000000000000000000000000109526109526111526000000000000109529109529000000000000109526000000000000000000109529000000109529000000000000000000000000000000109530109529000000109529109529000000000000000000110532109532109529000000109529000000000000000000110533000000109532109529109530000000000000111533)))
 (.node 2 (.node 1 (.leaf 110537000000109534000000000000110534000000112536000000000000109540000000110537110538110538110540110543109543109540000000000000110540111542111543111544109544109543109540110540111542111543111544110546109546109545109544111544111544111545111546110547109547109546109545111544111545111546111547111550108551110551110549111550110549111551112552110554110554109553108551111550112552112552111552000000110554110554109553109553112552111552110555109558109559109556108556111557110556111558112558110560109560109559109556111557111558112558112559109560108560109560109559109558112558112559112561110565109565108564109561111562110561111562110564110570110569110569108567109567112567112569112570111574109575109574109571111573112572111574111575110577110576110576109575111574111575111576111577110585110585109584109581109583111583110584110584110592109592108590109590109589112590112591112592110593109593109592108590111591112591112592112593111596110596109596110593111594111595111596112596000000000000000000110597111597111598111599000000000000109612000000000000000000000000000000000000000000110615109612000000000000000000000000000000000000109616110615109612000000000000000000000000000000000000109617109616000000000000000000000000000000000000000000109617000000000000000000000000000000000000000000000000000000000000000000000000000000000000000000000000000000000000000000000000000000000000000000000000000000000000000000000000110627000000000000000000000000000000000000000000110628000000000000000000110624000000000000000000000000108630108629110628000000000000000000000000)
 (.leaf 109631110631110630111630000000000000000000109633000000109631110631000000000000000000000000110635109633000000000000000000000000000000000000000000000000110636000000000000000000000000000000000000000000000000000000000000000000000000000000000000000000000000000000000000000000000000000000110119110118000000000000000000000000000000000000110120110119110118000000000000000000000000000000111122110120110119000000000000000000000000110125110126000000110124111122000000000000112124112125109127110126000000111123000000112124112125111128109127109127110126110125112124112125113128000000111128109127109127112125112125113128113128112131111131111131111129000000000000113130112130112134110135110132111132111131112131113134113134112135110136110135110132111132113134113134113135112136111136110136110135112134113134113135113135112138109138110138111136112136113135112136112137110139109138109138110138112137112136112137112138110140110139109138109138112138112137112138112139110141110140110139109138110139112138112139112140110141110141110140110139110140112139112140113142111145110145110142110141110141113142113143113145111146110146110145110142111142113143113145113145112147000000110148111146112146112145113147112147112150110150000000110148110148113147112147112150111151110151110150000000112147112147112150113151112151111151110151110150112150112150113151113151111154110154111151111151112151113151000000112154111155110155110154111151112152000000112154112155112157110158110157110156112156112156113157113157111159110159110158110157112157113157113157111159))
 (.node 1 (.leaf 111160111160110159110158112157113157111159112160111166111165110165111163112164112164112165112166112172109172109170111169112169112170112171112172112174111173110173109172112172112172113172112174112175111176111175111173112174112174113174113175112183109182111180110179111179112179112180113183112183109183109182111180111180112180113183113183110183109183109183109182112183113183113183113183112185110184109183109183112183113183113183113184112186110185110184109183110183113183113184112185110186111187110185110184112185113184112185113187111194111194111191109191111190112190113192113193112195111194111194111191112191113192113193112195111197111197111196111194112195112195113196112197112201111200111200111198112198113199112200112201111204111203111203111201112201113201000000000000000000000000000000111204000000000000000000000000000000000000000000000000000000000000000000000000000000000000000000000000000000000000000000000000111353109352110350110349111349111350112350111353110354109353109352110350111350112350111353112352110358109357109357110354111354111355000000112356111359109358109357109357111355000000112356111359111360109359109358109357110358112356111359111359110364109365110364111361111361111362113364113364111366000000109365110364110364113364113364112366111367110365000000109365110364113364112366111367111372110372110371110370110370112370112371111372111380111380109379111377111376112376112377112378000000110381111380109379112378112377112378000000110433110431000000000000000000000000113430112433110433109433110431000000000000113430112433000000)
 (.leaf 111435109433109433110431110433112433000000113434111436111436109433109433110433000000113434113434111440110440109439110438000000111437111439111440112446111446110446110445112445112445113446000000112449111450111448111448112448113448113449113450110452109451110450111450112449113450113450113451111454111454109451110450111450113450113451113454112454109453111454109451110452113451113454112453110458109458109457111455111455113455113457113457000000110460109458109457111456113457113457112460110461110462110461110460000000112460111461112460111466000000110465111463000000111463112465000000110470110471111468111468000000111468112470111471110472110472000000110472111470111471111471113474110475110473110472000000110472111471113474111474110477110476110475000000111474111474112475112478110478110477110476110475111475112475112478112479111480111479110477110476110477112478112479111479110482110482109482110482112481000000112481112482112491110490111489109489111488113488112491113491112492110491110490111489112491112491113491113492112494110493109492110491112492113492112492112493111497110497109496110493112494112493000000113496111498109498110497109496111494000000113496111497111501111501110500110499110498113497112500113500112507111507110505111505111504112504113505113507110512110512110511110508111508111509111509113511110512109511110512110511111509111509113511112513110512109512109511110512110512113511112513112514000000000000000000110518111516000000112517112518112520000000000000000000111517112517112518112519000000110520000000000000000000112518112519112520))))
 (.node 4 (.node 2 (.node 1 (.leaf 111523110523110520000000112520112519112520111523000000000000110523110520000000112520111523111523111526109526000000000000000000111523111523113525000000109526109526000000000000111523113525000000000000109529000000109526000000000000112528000000000000109529109529000000000000112528000000112528000000109530109529109529000000000000112528112529000000110532109530109529000000112528112529000000111533110533110532109530000000112529000000112531111534109533110533110532000000000000112531113533112536110537110536000000110534000000113534000000110537000000110537110536000000113534000000000000110538110537000000110537112536000000000000113539110538110540110537000000110537000000113539000000110540000000110540110537110538113539000000113540111542110540000000110540110538000000113540112540111543110543110540000000110540113540112540112543110549111550110549110548110548111547112547113549111551111550111550110549111547112547113549112551110555000000110554109553112552112553113553113554110556110556000000110554111552113553113554113555110556111557110556000000110555113554113555113555111558111557111557110556110556113555113555112558112561109560110560109558112558112559112560112561110561110560109560110560112559112560112561112562110561111562110560109560112561112561112562112563110565110566110565110562111562113564111563112564111567110567110566110565110564111563112564112567112567109567110567110566110565112564112567112568112570110570110569109567112567112568112569113570112570110571110570110569112569112569113570112571112572110572110571110570112570113570112571113571)
 (.leaf 112572111573110572110571112570112571113571113571111574110574111573110572112572113571113571112572111581110581110580110579110578113579112580113581111586110586110585110584110584113584112585112586111587110587110586110585110584112585112586112587112590109589110589110588112588112588112589113590112591111591109589110589112589112589113590112591112592110592111591109589112590113590112591113592112594110594110593110592112592113592112593113594111595111594110594110593112593112593113594113595000000000000000000000000000000000000000000000000000000000000000000000000000000000000000000000000000000000000000000000000000000000000000000000000000000000000000000000000000000000000000000000000000000000000000000000000000000000000000000000000000000000000000000000000000000000000000000000000000000000000000000000000000000000000000000000000000000000000000000000000000000000000000000000000000000110624000000000000000000000000000000000000000000110627110624000000000000000000000000000000000000110628110627110624000000000000000000000000000000000000110628110627000000000000000000000000000000000000000000110628000000000000000000000000000000000000000000000000000000000000000000000000000000110631110630000000000000000000000000000000000000000000110631110630111630000000000000000000000000000000000000110631000000000000000000000000000000000000000000000000000000000000000000000000000000000000000000000000000000000000000000000000000000111123111122000000000000000000000000000000113128111128112125110125112124000000113125113128113128000000111128112125112125113125113128000000))
 (.node 1 (.leaf 111128113128113128000000113128113130111131000000000000113128000000113128114130113134111132111131112131112130113130114132114132113134112134111132111131112131114132114132113133113142110141110141110140112139114140114141113141113143111142110141110141112140114141113141114142113145111145111142110141113142113141114142113145113145111146111145111142113143114142113145114145112150112150112147110148113147114147113149113150113151111151112150112147112147113149113150113151112155111155111154112152000000114152113154113155112160111160111159112157113157113158113159113160112161111161111160111159111159113159113160113161112165112164112164111163111163114163113164114165113177112177111177112175113175114175114176114177113179112179112177112177113177114177114178114178113183112183111180111179112179114179114180114183113183112183112183111180112180114180114183114183113184112185110183112183113183114183114184114185113188111188112187110186113187114187114188114189113189111189111188112187112187114188114189114191113193111194112191111190112190113192114192114193112195112195111194112191113192114192114193114195113196112195112195111194113193114193114195113196113198112198111197112195113196113196114197114198112201112201112200112198113199114199113200113201000000111204112201112201113201000000000000000000000000000000111204112201000000000000000000000000000000000000000000111204000000000000000000000000000000000000000000000000000000000000000000000000000000000000000000000000000000000000000000000000111350111349110348111347111348113347112348112350)
 (.leaf 111353111353111350111349111350112350113352112352112355110354110354111353111353112352113352112355111355111354110354110354112352113352112355112355111361000000111361111360111359112359114360114360111362111361000000111361111360114360114360114362113364110364111361000000111361114360114362114364113364110364110364111361111362114362114364114364112366111366110364110364113364114364114364114365111367111367111366110364113364114364114365113367112369111369111368111367111367113367114367114368112370110370111369111368111367114367114368114370000000000000111380112378112377112377113378112381000000000000000000111380112378113378112381113382000000000000000000000000000000113382000000000000113430000000000000000000000000000000000000114431112433110433000000000000000000000000114431114432000000110433110433000000113430114431114432112433113434111436111435110433000000112433000000113434112437111437111436111435113434000000113434113435111437000000111437111436113434113434113435112437112441110441111440110439111439112438112440113441113448112448111448112446000000113447114448113449113450111450112449112449113449114449114450114451113451110452111450112449113450114450114451113451113454111454110452111450113450114451113451114452113455111455111454112454112453114455114455113455113457111456111455111454113455114455113455114457113457110458111456111455113455113455114457113457112460000000110458111456113457114457113457114459111461111459000000110458113457113457114459112460111462111463110461111459111461112460113462114463111463000000111463110461112460113462114463114463)))
 (.node 2 (.node 1 (.leaf 112465111465000000111463111462114463114463112464111468111468111467111466000000112465114467114467112470111470000000111468111468114467112467114469111471110470111470000000111468112467114469112471113474110472110472111470111471112471113471113474111474110475110472110472111471113471113474000000111474111474110475110472113474113474000000114475112478110477111475111474111474114475114475114476112479110478110477111475112475114475114476113477000000112481111481111480111479114480112481112481113484111483110482111481112481113481113482114483113487111486111485111484112484114485114486113486113488111488111487111486113487113486113487114488112491112491111488111487112487113487114488114489113491112491112491111488113488114488114489114491113496111497111494112494112493114494114495114496111497111498111497111494000000114495114496113496113497110498111498111497113496114496113496113499112500111500110498111498111497113496113499113500113500111501111500110498113497113499113500113501111503111503111502111501113500113501114501113503113505111505111504112504112503113503113504113505113507112507111505111504112504113504113505114507111509111508111507112507113507114507114508114509111509111509111508111507113507114508114509113509113511110512111509111508111509114509113509113510112513110512110512111509111509113509113510113511112514110512110512110512113511113510113511114513000000111516111515110515111514000000112515113516111523111523000000112520112519113519112520000000111523000000111523000000112520112520000000113522111523000000000000111523111523000000113522114524)
 (.leaf 113525111526000000000000111523113522114524000000000000000000111526000000111523114524000000114526112528000000000000111526113525000000114526113528000000000000000000000000000000114526113528000000000000000000000000000000112528112528113529112531113533111534111533000000000000112531112531114533000000110534111534111533112531112531114533113533113534000000110534111534113533114533113533113536000000112536000000110534000000113533113536000000113539110538110537112536000000000000000000113537000000110538110538110537000000000000113537000000113540110540110538110538113539113537000000113539112543111543111542110540113540113539113540114542112544111544111543111542112540113540114542112544111547110548111547111546111545112545112545112547113549110549111547110548111547112547113549113550112551111551110549111547112547113549113550114551112552112552111551110549113549113550114551114552113555110556110555111552113553114554113555113556113555110556110556110555113554113555113556114556112558111558110556110556113555113556114556114557112559112558111558110556113555114556114557114559112568112567111567110565112564112565112565113568113574111575111574112572113571113573113574113575113575111576111575111574112572113574113575113576113576111577111576111575113574113575113576114576113578111578111577111576113575113576114576114577113579110578111578111577113576114576114577114578112580111580110578111578113578114577114578114579113581111581111580110578113579114578114579114580113582111583111582111581113581114580113582114583113584110584111583111582113582113582114583114584))
 (.node 1 (.leaf 112585110584110584111583113582114583114584114584112586111586110584110584113584114584114584114585112597112596111596111595113595113595113596113597000000000000000000000000111600113600113601000000000000000000000000000000000000113601000000000000000000000000000000000000000000000000000000000000000000000000000000000000000000000000000000000000000000000000000000000000000000000000000000113620000000000000000000000000000000000000113620113623000000000000000000000000000000113620113623000000000000000000000000000000000000113623000000000000000000000000000000000000000000000000000000000000000000000000000000000000000000000000000000000000000000000000000000000000000000000000000000000000000000000000000000000000000000000000000000000000000000000000000000000000000000000000000000000000000000000000000000000000000000000000000000000000000000111630000000000000000000000000000000000000000000000000111630000000000000000000000000000000000000000000000000111630000000000000000000000000000000000000000000000000000000000000000000000000000000000000000000000000000000000000000000000000000000000000000000000000000000000000000000000000000000000000000000000000000000000000000000000000000000112124000000000000000000000000000000000000113128113128112125112124000000000000114125113128000000113128113128112125113125114125113128113128114130113130000000113128000000113128114128115129114132112131112130113130114130115129114130114131114132113134112131112130113130114130114131114132114141112140112139112138113138114138113139114140114145113145113145113143114142115144115144115146)
 (.leaf 114147113147112145113145114145115146000000000000113150112150112147113147114147000000114147114150113154112154000000113151114151115151000000114154113155112155112154000000114152000000114154115155113158113157113157112156114156114156114157115158114165112165112164111163114163114163115164114165114166112167112166112165114165114165114166115167114166112168112167112166114166114166115167115167113169112169112168112167114166115167115167114169113170112170112169112168114166115167114169115170113175113174112174113172114172115172115173114175114180112180112179113179114178115178115179114180114183113183112180112179114179115179114180115183114183113183113183112180114180114180115183114184114185112185113184113183114184115183115185115186114187113187112185113184114185115185115186115187113192112190113189113188114189115189114189115191114192113192112190113189114191114189115191115193113196113196112195113193114193115194115195114196114197112197113196112195114195115195114196115196114199113199113198112197114197115196115197000000000000000000000000000000000000000000000000000000000000000000000000000000000000000000114341113343112345000000000000000000000000113343113343114344112346000000000000000000112344113343114344115346112347112346000000000000112345114344115346115346112348111349111348112346112347115346114347114350112350111350111349111348113347114347114350114351113352112350111350111349112348114350114351113352112352111353112350111350112350114351113352113352112355112355112352111353112352113352115353115353112355111355112355112352113352115353115353114354))))))
 (.node 16 (.node 8 (.node 4 (.node 2 (.node 1 (.leaf 112356000000111355112355112355115353114354115356112357112356000000111355112355114354115356115357112358111359112356000000112356115356115357115358112359111359111359112356112357115357115358115358114360111360111359111359112358115358115358115360114360111361111360111359112359115358115360114360114362111362111361111360114360115360114360115363114364113364111362111361114360114360115363115364114364113364113364111362114362115363115364115364113367111367112366113364114364115364115365114367114367111367111367112366114365115365114367114368114370112370112369111367114367114368114369114370113371112371112370112369114368114369114370114371112372111372112371112370114370114370114371113372112381000000112378112377112377113377114378114381113382000000000000112378113378114378114381114382000000000000000000000000112381114381114382113382114432112433113430000000000000114429115431114431112433000000112433113430114431115431114431114432000000113434000000112433114432114431114432113434112437111437112437113434113434113434114435114436112438111439111437112437113435114435114436113438113441112441111440111439112438113438114440113440112443112444112443111441112442114442114443114444113445112445112444112443112442114443114444114445113446113446112445112444112443114444114445114446114452113454113451113450114451114452115453115453114455112453113454113451113451115453115453115454114457113457113455113455114455114456115456115457114459112460113457113457114457115457114457114458112460111461112460113457113457114457114458114461113462112460111461112460114459114458114461115462)
 (.leaf 114463111462112460111461112460114461115462115463112464112465111463111462114463115463114464115465112465000000112465111463114463114464115465114466114467112465000000112465112464115465114466114467114467111468112465000000112465114466114467114468112467111468111468112465114467114467114468114469114469112470111468111468114467114468114469000000112471111471112470111468112467114469000000114469112471111471111471112470114469000000114469113471113474113474111471111471112471113471113471114474000000111474113474111471113471113471114474114475114475112475111474111474000000114475115475115476114476112478112475111474114475115475115476114476114480111479112479112478114476114476114477115480112481112481111479112479113477114477115480114481112481000000112481111479114480115480114481000000114483113484112482112481113481114481115482115484114486112485112484113484114483115484114484114485114489112491113488112487113487115487115489115490114491113491112491113488114488115489115490114490114494112493112492113492113491114491114492115493114495000000112493112492114493114492115493115494114496113496000000112493114494115493115494115495113500112500113497111497113496115498114499114500114503113503111503112502114501114502115502114502114507113507113505112504113504113504115505114506114509111509113507113507114507114506115507114508112513111514112514112513113511114511113512114513112515111516111514111514112513114513113514000000112519112518112517000000113516113517113517113519112520112520112519112518112519113519115519114520000000111523112520112519113519115519114520114523))
 (.node 1 (.leaf 114524111523111523111523000000114523000000000000000000113525111523111523113522000000000000114524113528112528000000113525000000114524000000000000000000000000112528000000114526000000000000000000112531000000112529112528112528114528000000114532112531112531000000112529113529000000114532000000114533113533112531000000112531114532000000000000000000000000113534000000113533000000000000000000000000000000113539000000000000115537115538115539114542112543112540113540113539115541115541115541112544112544112543112540113540115541115541114542112544112545112544112543114542115541114542113545112545111545112545112544112544114542113545115545113549112547111547111547112545113546113546114547113550113549112547111547112547113546114547114550113553112553112552112551114551115551115552115553114554113553112553112552114552115552115553115553114559112559112558113555114556114557114558115558112559112560112559112558114557114558115558115560113561112561112560112559114559115558115560115561114561112562112561112560112559115560115561114562113564113564112563112562114561114562115563115563112564111563113564112563112562115563115563113564112565112567112564111563112564113564114564115566113568112568112567112564112565114564115566115567113569112569112568112567112565115566115567115569113574112572113571113571114571115571114571113574114578113579113578113576114576114577114578114579113582113582113581112580114579114580114581114582114584112585113584113582114583115583115583115584113587112587112586112585114584115584115584114585113588112588112587112586114585115584114585114588)
 (.leaf 113601000000111600112599114598115599114600114601000000000000000000000000000000000000000000000000000000000000000000000000000000000000000000000000000000000000000000000000000000000000000000000000000000000000000000000000000000000000000000000000113623000000000000000000000000000000114620114623000000000000000000000000113620114620114623000000000000000000000000000000000000000000000000000000000000000000000000000000000000000000000000000000000000000000000000000000000000000000000000000000000000000000000000000000000000000000000000000000000000000000000000000000000000000000000000000000000000000000000000000000000000000000000000000000000000000000000000000000000000000000000000000000000000000000000000000000000000000000000000000000000000000000000000000000000000000000000000000000113128113128113125000000000000000000114125115126113128000000113128113125114125114125115126000000115129114130113128000000113128000000116130116130113133113133114132114132114131114131114132115133113135113134113133114132114132114132115133116135113135113135113134113133113133115133116135114136113139114140113138113137113138115137114138000000115144113145114142113141114141000000115144116144115146114145113145114142115144115144116144116144114150113150113149114147000000114147115149116149114151113151113150113149114147115149116149115151115155113155113154114152000000115151116153115155114157113157114156113155115155115155115156115157114160113160113159113158115158115158116158116159114161113161113160113159113159116158116159114160114166114166114165113164115164116163116165116165)))
 (.node 2 (.node 1 (.leaf 114169113169114166114166115167115167116168115169115170113170113169114166115167116168115169116169114172113172113171113170115170116169115171116172115175114175113175114173115173116173116175116176115183114183114180114179115179115179115182116182114184114183114183114180114180115182116182116183115187114187114185114185115185116185115185115186115191113192114191114189115189116189115189116191114196113196114195114193115194116194116195116195000000000000113201113200000000000000000000000000000000000000000000000000000000000000000000000000000000000000000000000000000000000000000000000000113343112344000000000000114341114342114342114344115346112346112345112344113343114344114344115345115346112347112346112345114344114344115345115346114350112348113347112347115346115346115347115350114351112350112348113347114347115347115350115351115353113352112352113352113352116351116352116354115353112355113352112352113352116352116354116354115356112356112355112355115353116354115354115357115357112357112356112355114354115354115357116357115358112358112357112356115356115357116357116358115358112359112358112357115357116357116358115358115360114360112359112358115358116358115358116361115363114362114360114360115360116361116362116363115364114364114364114362115363116363116363116364114368114367113367114365115365116365115367116368114381112381113378112377113377115377115378115379114382113382112381113378114378115378115379114382000000000000000000000000000000114386115388114388000000000000000000000000000000000000115400116403000000000000000000000000000000115400116403116403)
 (.leaf 116403116403116404000000000000000000000000000000116403116404115406000000000000000000000000000000116404115406000000000000000000000000000000000000115406000000000000115431114431000000000000000000000000115429116431113434000000112433114432114431115431115432116434113434113434000000112433114432115432116434114435113438112438112437113435114435115435114436115439114440112440112438112437114436114436115439114439114443112442112442113441113440115441115442115443115454114455114452113451115453115453116454116454114456114455114455114452115453116454116454116454115462113462112460114459114458115458116461116461114464114463114463113462115462116461115463114463114467114467112465112464115465115465000000114467113471112471112471114469000000114469115469114471114475000000113474113471113471114472114472116474115480114480113477114476114476116476115477116480114481112481114480113477114477115477116480115481115482113482113481112481000000115482116482116483115487113487113486114486114485116486115486116488114499113499113496114496115495115495116497115499114500113500113499113496115498116497115499115500113504113504113503114503114502116503116504115504115505113505113504113503113503116504115504116505115510113510113509114509114508116508116509116511000000112515000000112513114513116514114514116517113517113516112515000000113514114514116517116517113517112517113516112515000000116517116517116518115519113519112519112517113517116518114518114520000000113522000000112520114520114521114521115524000000114526000000114524000000000000114524114526))
 (.node 1 (.leaf 113528114526000000114526000000115529000000113529112528000000000000115529000000115529114532112531113529112528114528000000115529115532000000112531112531113529000000115529115532000000000000113536113533114533000000000000116534115536000000000000113536113533000000116534115536000000115537000000000000113536000000115536000000116537115538113537000000000000000000000000116537116537115539000000113537000000115537116537116537115538115541113539000000113537115538116537115538115539115541113540113539000000115539115538115539115540115541114542113540113539115541115539115540116543113545112544112544114542115541116543116543116545115545112545112544112544114542116543116545115546113546112545112545112544113545116545115546115547113546112547112545112545115545115546115547116547114550113550113549112547113546116547116548114549114555113555114554113553115553116553116554115553114562114561113561112559115560116560116561116562113564112564113564112562115563114562116563114564115566112565112565112564113564114564115566116566115567113568112565112565114564115566116566116567115569113569113568112565115566116566116567116568114570113570113569113568115567116567116568116569115571114570113570113569115569116568116569115571113574113574113573114571115571116571116572116573115574113575113574113573114571116572116573116574113576113576113575113574113574116573116574115574114577114576113576113575115574116574115574114577114588113588113587114585115584115584115587115588114589113589113588113587114585115587115588115589115599114598113598113597113596115597115598115599)
 (.leaf 114601113601113600114598115599115599116600115601000000000000000000000000000000000000000000000000000000000000000000000000000000000000000000000000000000000000000000000000000000000000000000000000114623113623113620000000000000000000115620115623000000000000113623113620114620115620115623000000000000000000000000000000000000000000000000000000000000000000000000000000000000000000000000000000000000000000000000000000000000000000000000000000114125114125000000000000000000000000000000000000000000113128113128114125114125000000116126116129116130114128113128113128115126116126116129000000116131114130115129114128116130000000000000000000114131114131114130115129116130000000000000000000114132114132114131114130116131000000000000117133116135113135113133114132114132117133116133116134114136113135113135113133115133116133116134116135114137113136113135113135116135116134116135115137114140114140113139114138114138115139117140115141116144115144115144114141000000115142116144117145116146000000115146115144116144117145117145116147115149114147000000000000116146116147117148116149116149114150114147000000114147117148116149000000116152115151114151114150116149000000116149116152116153114154000000115151116152116152117153000000115155115155114154000000115151117153000000000000115156114156115155114154116153000000000000116156114160114161114160113159116158116159116160117161114161114162114161114160116159116160117161116162116163114163114162114161114160117161116162117162116163115164114163114162114161116162117162116164116165114165115164114163116163117162116164117164))))
 (.node 4 (.node 2 (.node 1 (.leaf 115167115167114166114165116165117164117166116167116168115167115167114166116165117166116167116168116169115170114169115167116168116168117168117170116176115175114175115173116173116174117175116176115182114180115179115178116179117180117181117181116182115183114180115179115179117181117181117182116185115185115183114184116183117184117184117184116189115189115187115187115186117186117187117190116191115191114189115189116189117190116189117191116194115194115193115191116191117191117193117193000000000000000000000000000000000000000000000000000000000000000000000000000000000000000000000000114342113343114341000000000000115341116341116342114344113343113343114341114342116341116342116343114344114344113343113343114342116342116343115345115350114350114347115346115346117347117347116350115351114351114350114347115347117347116350117351116354115353113352113352116351117351116353116354115357115356114354115353116354117354117355117355116361115360115358115358116358117359117359117361116363115363114360115360116361117361117362117363116363115364115363114360116362117362117363117363116368114368114367115365116365117365116367117368115370114370114369114368116368117368116369116370114377113377113376113375114375115375116375116376114382114382114381114378115378116378116379116380114382113382114382114381115379116379116380117382114383113383113382114382114382116380117382117382114384000000113383113382114382117382117382116385114385000000000000113383114383117382116385117385114386000000000000000000114384116385117385117387115388000000000000000000114385117385117387117387)
 (.leaf 114388000000000000000000114386117387117387116389000000000000000000000000114388116389116390000000000000000000000000000000000000116390000000000000000000000000000000000000000000000000000000116399116403000000000000000000000000116399117402117402116403000000000000000000115400117402117402117404116404000000000000000000116403117402117404117404115406000000000000000000116403117404117404117405000000000000000000000000116404117404117405117406000000000000000000000000000000117406117407000000000000000000000000000000000000117407000000000000000000000000000000000000000000000000000000000000000000000000000000000000000000000000000000000000116431115431114429000000000000000000116431117430116434113434114432114431115431116433116434117434114435113434113434114432115432116434117434116434114436114436114435113434114435116434116435116438115439113438114436114435115435116435116438117438114439114440113438114436114436116438117438116440115442114442113440114440114439116440116441116442116449115448000000114447114447116447116448116449115451114451114450115448116449116449117450117450116452114452114451114450116449117450117450116452116454115453115453114452116452116452117452116454116456115456114456115454116454117454117454116455116461115462114461114458115458115459115459116460115463115463115462114461116461115459116460116461114468114468114467114466000000115465116465116468114468114469114468114467114467116465116468115468114471113471114469000000114469117469115469116470114472114474113471113471114471116470115471116474116474114475114474113471114472115471116474117474))
 (.node 1 (.leaf 116475115475114475114474114472116474117474117474116480115480114477114476116476116476116479117479115481114481115480114477115477116479117479117480116486114485114484115484115483117483117484116485116489115489115487115487115486117486117488116488116491114491114490115490115489117489117490117491116497115498115495115494116494116494116497116498115499114499115498115495115495116497116498115499116502115502114502114501116501116501117501116501116504113503114502115502116502116501117503117504116508114508115507114506115506117506117507116508116509114509114508115507116507117507116508117509116511114511115510114509116509117509117510116511114512113512114511115510116511117510116511116512116514114513113512114511116511116511116512116513114514113514114513113512114512116512116513117514116517000000113514114513116514116513117514116515116517113517000000113514114514117514116515116516116518113517113517000000116517116515116516116517114518113519113517113517116517116516116517116518114521114520115519113519114518116518115519116520114521114523114520115519114520115519116520115522114526000000114524000000000000116525116526000000000000000000000000114524114524116526000000115527000000114528000000000000000000115527117528116528115532114532000000114528000000116528115529116532000000000000114532000000115529115529116532116533116534000000000000000000000000116533116534000000115536000000000000000000000000116534000000116536000000000000000000000000116534000000116536116537116543114542115541115541115540117542000000117543116545113545114542115541116543000000117543117544)
 (.leaf 115546115545113545114542116543117543117544116546114549114550114547113546116547117547116547117549115551115551114550114547116548116547117549117550116552115552115551114550114549117549117550116550116557114557115556114555115553117554115554117556116559115558114558114557116557117556117557116559116561115561115560115558116559116559117560117561116563115563115563114562116562117561116563117563115566114564113564115563116563117563116563117566116566115566114564113564114564116563117566116567116569114570115569115567116567117567116569117569116571115571115571114570116569117569117570117572116573113574114571115571116571117572117572116574116574115574113574114571116572117572116574117574114577114577113576115574116574117574117575117575114577114578114577113576115574117575117575116576115580114580114579114578114577116576115577117579114581114581114580114579114578115577117579115580115583115583114582114581114581115580115582117583115588114588114585115584115584115585116587117587114596113595114595114594114593115593116595116596115597113596113595114595115593116595116596115597115598114598113596113595114596116596115597115597115602000000114601114600116600116600116601000000000000000000000000000000000000000000000000000000115623114623114620000000000000000000000000000000000000000000114623114620115620000000000000000000116129000000115126114125000000000000000000117127000000116130000000115126116126000000117127000000117133114132114131116131000000000000000000000000115137114137114136116135116134118134118136118136115139114138115137114137115137118136116137116139)))
 (.node 2 (.node 1 (.leaf 115141114140000000114138115139116139117141118141115142000000114140000000117140117141118141117143116144115144000000114140115141118141117143117144117145116144115144000000115142117143117144117145116147116146116144116144117145117145000000000000000000116149115149114147117148117148118149116149117153115151116152115151116149116150117152117153116156115156115155116153000000117154117155118156115156115157115156115155000000117155118156117157116159116158115158115157115156117157117158117159117162116163114161114160117161117161117162118163116168116168115167116165117166117166118166118167116172116172115171116169117170117170117171118171117172115173116172115171117171117171118171118172117180116179116177116177117177117176118178118180117181115182115179116179117180118180118180117182117182116182115182115179117181118180117182118182117184116185115183116183117184118183118184118185117186115186115185116185117184118185117185118188117187115187115186115185117186117185118188118188117190116189115187115186117186118188118188118189117191116191115189116189117190118189118190118190117193116194115193116191117191118190118193118193116195116195116194115193117193118193118193117195115341000000000000000000000000000000000000117340115345115345114344114344116343116344118345118346117347115346115345114344115345118345118346118346117347115347115346115345115345118346118346117347116350115350115347115346117347118346117347117350117351115351115350115347117347117347117350118350117355115357115354116354117354118354118355117355117361116361115358116358117359118358118359118360)
 (.leaf 117362116362116361115358117359118359118360118361117368116368115367116365117365118364118367117368115375114375114374114373115373116373117373116375117382114382114382115379116379118380117380117381117382114383114382114382116380117380117381117384116385114384114383114382117382117381117384117385117385114385114384114383117382117384117385118385117387115388114386114385117385118385117387117388116389114388115388114386117387117387117388116388117402115400000000000000000000000000000000118402117402116403115400000000116399000000118402118402117404116403116403115400117402118402118402117404117406000000115406116404117404118404118405118406117407000000000000115406117405118405118406118407000000000000000000000000117406118406118407118408000000000000000000000000117407118407118408118409000000000000000000000000000000118408118409118409000000000000000000000000000000118409116410116412000000000000000000000000000000000000000000117428116431115429000000000000000000000000117428000000117430116431115429000000000000117428000000117430116434115432115431116431117430117430117431116434116438114436115435114435116434117434118436118437117438115439114436115435116435118436118437000000116441115441114439115439117438000000116440116441116452116452115451116449117450117450117451118452117452115453116452115451117450117451118452118452117454116454116454115453117452118452118454118455115459115458115457116457117457118456118458117458115459116461115458115457115457118458117458117459115464114463115463116461116460116460117461117462116465115465114463115463116461117461117462116464))
 (.node 1 (.leaf 116468114468114467000000115465117466116465117466115468114468114468114467116465116465117466117469115469115469114469114468115468117469117470116470115471114472114471115469115469116470116470117471116474114472114472114471116470116470117471117474117474116474114472114472115471117471117474118475116479115477116476115475117476118476117476118479117479116480115477116476116476117476118479118479117482116482115482115481117480118481117482000000117488116488115486116486116485117485118487118488117490115490115489116489116488117488117489117490116497115495116494116493116493117493117494117497116498116497115495116494116494117494117497116498117501116501116501115500115499117500117501118501117506115506116505115504117504118504118505118506117510116511116509116508116508118508117509117510115519114520114518116518116517116518116518117519115522114521114521114520115519117519117520116522116525000000115524114521115522116522117522116524117528115529000000114526000000000000117528000000115529115529000000115529117528000000117528118530116532115532115529000000116528117528118530000000116533000000115532115529115529118530000000117531117542115540115539115538116538116539117541000000000000116543115540115539000000117541000000000000117543116543116543115540117542000000000000117544116546115546116545116543117543117544116545116545117550115551114549116548116547117549117550118551117553116553116552115551117550118551118551117551117556116557115554115553117554118554118556117557117557115558116557115554115554118556117557118557117560116560116559115558117557118557117557117560)
 (.leaf 117566115566114564116563117563118563117563117564116567116566115566114564116563117563117564117567117572116571115571116569117569117570118570117572117575114577115574116574117574118573117574117577115577114578114577114577117575117577118577117579117579115580114578114577116576118577117579117580115580114581115580114578115577117579117580117581115582115582114581115580117579117580117581118581117583115583115582114581115580117581118581118582116584116584115583115582115582118581118582118583117584116584116584115583117583118582118583118585116587115587115584116584117584118585118585117587117587115588115587115584115585118585117587118587115589115590115589115588117587118587118588118589115590115591115590115589117588118588118589118589115592115592115591115590115589118589118589116591116595115593114593114592115592116592116594116594115598115599115598115597115597116596116596116599116600116600115599115598115597116596116599117600000000000000000000115602000000117602117603000000000000000000000000000000000000117603000000000000000000115620000000000000000000000000000000000000000000115623115620000000000000000000000000000000000000000000115623115620000000000000000000000000000000116126000000000000000000000000000000000000000000000000116129116126000000000000118127118130000000000000000000116129117127118127118130000000000000000000000000000000000000118130000000000000000000117133000000000000000000000000000000000000118134116134116133117133000000000000118133118134118136116135116134116133117133118133118134118135118136115137116135116134118134118134118135119137)))))
 (.node 8 (.node 4 (.node 2 (.node 1 (.leaf 116137115138115137116135118136118135119137119138116139115139115138115137118136119137119138119139117141117140115139115138116137119138119139117141117144116144115142115141118141119141118141117143118149116149117148116147000000117146118146119148116150116149000000116149118149119148119150117150117153117153116152116149116150117150118150118153117158117158115156116156118156118156119156119157118165117164116164117162118163118163119164118165118166116167117166117164118165118165118166119167118169117168116168116167118166119167119167118169117171117171117170117168118169118169119170119170118174117175116174117172118172119172119173119173117176116176117175116174118172119173119173117176118180117180117177117177117176119177119178119179118180117181117180117177118178119178119179119180118184117184117184117182118182119182119182000000118189117190117187117186118188118186119188119189118190116189117190117187118188119188119189119189118193117193117193117191118190119190119192119193117196116196116195117193118193119193119194118196116342116341115341000000000000000000119341119341116343116342116341115341117340119341119341118342116344116343116342116341116342119341118342118343118345115345116343116342116343118342118343118346118346115345115345116343116344118343118346118347118346117347115345115345118345118346118347119348117350116350117347117347118346119348118349118350118350117351116350117347117347118349118350118351118354116354116353117351118351119351118351118354118354117354116354116353118351118351118354118355118358116356117355117355118355119355118355119357)
 (.leaf 118358117359116356117355117355118355119357118359118359117359117359116356118358119357118359119359118361117362117361117359118359119359119360119361117369116369117368116367118367119367118368117368116373115373115372115371116371117371117373117373116375115375115374115373116373117373117373118374116376116376116375115375116375118374117375117377118380116379116378116377116377117378117378118379117385116385117382117382117381119381119382118383117388117387117387117385118385118386118387118388118402117402116399000000000000000000000000119402118402117402117402116399000000000000119402119402118404117404117404117402118402119402119402119404118409000000000000117407118407119407119408119409118409000000000000000000118408119408119409119409116410000000000000000000118409119409119409119410116412000000000000000000118409119409119410118413000000000000000000000000116410119410118413119413000000000000000000000000116412118413119413118415000000000000000000000000000000119413118415117415000000000000000000000000000000117423000000117425000000116431000000000000000000117427118430117430116434116434116433117430117430117430118431117434118435117434116434116433117431118431117434118435118436116435116434117434118435118435000000118435118437116438116435116434117434000000118435118436000000117438116438116435118436118435118436118437116441116441116440117438000000118437119440118441117442116442116441116440116440119440118441117442117443116443116442116441116441118441117442117443118455117454116454117452118452118453118454118455118456116455117454117454118455118455119456119456))
 (.node 1 (.leaf 118456117457116455117454118455119456119456119457116460116460115459115459117458117459118459118460116464116465115464116461117461117462118462119464117466115465116465115464117462118462119464119466116465116465115465116465116464119464119466117466117469115468116468116465116465117466117466118467117470117469115468116468117466117466118467117470117474116474115471116470116470118470117471118472118475117474116474115471117471117471118472118475118476117476117474117474118475118475118476119476118479116479116476117476118476119476119477118477118479117479116479116476117476119477118477119479000000117482116482117480118481118481118482117482118488117488117486116485117485118485119486118487117497116497116494116493117493118493118496118497116498116498116497116494117494118496118497117498117501116501115499115499116499117498118500118501118503117503116501117501118501119501119502119502118508116508117507117506118506119506119507119508118515116515117514116513117513119515119515119515117518116516116515117514118515119515119515119517116518116517116516116515118515119515119517119518116524116525115523115522116522117521118522118523116526116526116525115523117522118522118523119525000000000000116526116525116524118523119525119526117528115527000000116526116526119525119526000000000000117528115527000000000000119526000000117528118530115529116528117528000000117528117528118531000000116532115529116528117528117528118531000000000000116534116533116532000000000000118531117533116535116537116536000000000000117534118534117536116539116538000000116538116537117536117537118540)
 (.leaf 117541000000116538000000116538117537118540118541000000117542000000116538116539118540118541000000117547117547116546117544116545119544118544118547117548117547117547116546116545118544118547119548117554116554117553116550118551118552119553119554117557117556115554117554118554119555118554118557117560117560116559117557118557119557118557117559118563117563116563117561118562118562119562118564117567116567117566116563117563119564119565118567117570117569116569117567118567119567119569119569118572117572117572117570118570118571119571119572118573117574116574117572118572119572119573117574118577116576117575117575117574119575118577118578117580117579115577116576118577118578117579119579118583116584117583115582118581118582119583119583117587116587115585117584118585118585119586118587118587117587116587115585118585119586118587118588118589115590115589117588118588118589119589119590116591115592115590115589118589119589119590119590116592115592115592115590118589119590119590119593116594115593115592115592116591119590119593118594116594116595115593115592116592119593118594118595117596116596116595115593116594118594118595117595117600116600115598115597116596117597117597117600117601116601116600115598116599117597117600118601000000000000000000000000000000000000000000000000000000000000000000000000000000000000000000000000000000000000000000000000000000000000000000000000118130000000117127000000000000000000000000119128000000000000000000117127118127000000119128000000119138116137118136118136118135118136119136120138119139116139116137118136119137119136120138120139)))
 (.node 2 (.node 1 (.leaf 117141117141116139116137119138120138120139120140119141118141117141116139119139120139120140120141117143117144117143118141119141120141118141119144117146000000117145117144117143119144118143118145119148118149117148000000117146118146118146120148119150116149118149117148118146118146120148000000118153117153117152116150117150120150118150120151117153117154117153117152118150118150120151120153118156118156117155117154117153120153119155120156119156117157118156117155117155119155120156120157119158117159117158117157119156120157120157119157117160116160117159117158119157120157119157118160118161117161116160117159119158119157118160118160118166117166118165117164119164119164119165120166119170117170118169118167119167120167119169120169119171118171117171117170119170120169120170120172119173118174118172118172119172120172120173120174118177118176117176118174119173120174119174120177119180118180118180118178119178120178000000000000119182118182117182118180119180000000000000000000119188118188118188117185119185000000000000000000119192118193118190118190119189120190120191120192119193118193118193118190119190120191120192120194118196117196117195118193119193120194119193118196118197118197117196117195119194119193118196119197119341117340000000000000000000000000000000119340119341116342117340000000000000000000119340119341118346118345116344116343118342118343120345120345118350117350117347118346119348119348120348120349118354118354118351118351119351120351120353120354118355118354118354118351118351120353120354120355119357118358117355118355119355120356120356120356)
 (.leaf 118359118358118358117355118355120356120356119359119367118367118364118364119363119363119366120367118368117368118367118364117366119366120367119368117377116376117375116375118374118374118375118377119381117381117380118380118379119379119380119381119382117384117381117380118380119380119381119382118386118385117385117384119382119382119383119386117392000000000000000000117391118390118390118392000000000000000000000000117394118394118396119397000000000000000000000000000000119397000000000000000000000000000000000000000000000000000000119399119402118402000000000000000000000000119399119400119402118402118402000000000000119399119400119401119404118404117404118402119402119401119402119403119410116410118409118409119409120409120409119412118413116412116410118409119409120409119412119413119413000000116412116410119410119412119413120414117415000000000000000000119413120414120414119414117417000000000000000000117415119414119415119416000000000000000000000000117416119415119416119417117419000000000000000000117417119416119417119418117420000000000000000000000000119417119418000000117421000000000000000000117419119418000000118421117425000000000000000000117423118423000000000000117426000000000000000000000000000000000000119427117427000000000000000000117425000000119427118428117427000000000000000000117426119427118428118428117430000000117428000000117427118428119430118430117434116434117431117430117430119432000000119432118435118435116434117431118431000000119432119435000000117434118435116434117434119432119435119436119440116440000000118437118436118436119437120440))
 (.node 1 (.leaf 118441116441116440000000118437119437120440120440117442117442116441116440119440120440120440118442117445116445117444117443117443119443118444118445117462117461116460117459118459119459119460119461119464116464117462117461117462119461119462120465119466117466116464117462118462119462120465120465117466116465117466116464119464120465120465120465117466117466116465117466119466120465120465118467117470117470117469117466117466118467118467119468117470116470117470117469118467118467119468119469118476118475118475117474118472119472118473119476119479118479118479117476119477000000119477120479118482117482118481118479119479120479119479119482117484117484117483117482117483118483119483119484119486118487117485117484117484119484119485118487117490117490117489117488118488119488119489120491117491117491117490117489118489119489120491120491119493117492117491117490117490120491120491119492118496117494117493117492119493119492119495120495118497117497117494117493118493119495120495119497118500117500116499116498117498120497119497118499119512117512117511117510118510120510120511120512119515117513117512117511118511120511120512120514119515118515117513117512119512120512120514119514119517117518118515118515119515119514120516119516119518116518117518118515119515120516119516119517119518116518116518117518119517119516119517119518117520117519116518116518119518119517119518120520117521117520117519116518119518119518120520120521117521116522117520117519117520120520120521119523119525116526116524117522118522120523119525119526119526000000116526116524118523119525119526120526)
 (.leaf 117528000000116526119525119526120526120528117528000000117528000000119526120526120528118528118531118530117528000000117528118528000000118530117533000000117531000000000000118530000000118533117536116535116535000000117534119533120535119535117536116537116535116535118534120535119535118537118540116539116538116537117536118537120538119540118541117541116539116538117537120538119540118541119543117544000000000000000000119542120543119542119544116545117544000000119542120543119542119543118547117547116545116545119544119543120546120547119548117548117547116545118544120546120547119548117549117550117549117548119548119548119549119550118551118551117550117549119548119549119550120550118552118551118551117550117549119550120550119550119555118554117554117551119553119553120554120555117559117560117557118557119557120558120558120560119561118560117560117557118557120558120560120561119562118562118562118560119561120561119562120562118567117567117564117563119564120564120566119567119567118567117567117564119565120566119567120567118571118570117570118568119569119569120569119571119575117574118573118573119573119572120574119576118577117577117574118573117574120574119576118576119580117581117580117579117579119579119580119581118582118581117581117580119579119580119581119582119586118585118585118583119583119584120584119586118588118587117587118585119586119586119587119588119590116591118589118589119589119590120590119590119593116592116591118589119590120590119590119593118594116594116592116591119590119590119593118593117600117600116599116596117597118597120599119600))))
 (.node 4 (.node 2 (.node 1 (.leaf 118601117601117600116599117597120599119600119601117602117602117601117600117600119600119601000000000000000000117603117602117602000000000000000000000000000000000000117603000000000000000000000000000000000000000000000000000000000000000000000000000000000000000000000000000000000000000000000000000000000000000000000000000000000000000000000000000000000000000000000000000000000000000000000000000000000000000000000000000000000000000000000000000000000000000000000000000000000000000000000000000000118127000000000000000000000000000000000000000000000000118130118127000000000000120128121129000000000000000000118130119128120128121129000000000000000000000000000000000000121129000000000000118135118134118133000000000000000000000000000000118136118135118134118133000000000000000000120135120141119141117141119139120139121139121140121141118143117145117143118141118141121142119142119144120148119148118146117146118146119146121148000000120150117150119150119148120148000000121150121151120151118153118150117150120150121151121151121152120153117153118153118150118150121151121152120154119155117155117153118153120151121152120154120155120156118156117155117153120153120154120155120156118160118161117160119158119157120157121160121161120162118162118161117160118160121160121161121162119163118163118162118161118160121161121162120163119164119164118163118162120162121162120163120164120167119167119167118166120166121165121167120168120169119170118169119167120167120168121168120170120177118177117176119173120174000000000000000000119178119177118177117176119174000000000000121177)
 (.leaf 119182119182000000000000000000000000000000119185000000119182000000000000000000000000000000118186119185119185000000000000000000000000000000119188118186119185000000000000000000000000120192119192119190119189120190000000000000000000119197118197118196119194119193121193120194119196118343118342119341119341119340120340121342121343120345118343118342119341119341121342121343121344120345118346118343118342118343121343121344121344120346118347118346118343120345121344121344120345119348119348118347118346120345121344120345120346120348118349119348118347120346120345120346120347120351118351118350118349120348120347120348120351120351119351118351118350120349120348120351121351120354118354118351119351120351121351121352120354120355118355118354118351120353121352120354121354120356119355118355118354120354120354121354120356120356119357118355119355120356120356121357120358120359119359118359119357120356120358121357121359119366117366119363119363120362120362120365120366120367119367117366119363119363120365120366120367118370117370117369117368118368119368119370119370118378117378117378117377118377119376119377120378119386118386118383119382119382119382120383120386119387118387118386118383119383120383120386120387118390117390117389118388118388120388119389119389118390117391117391117390118390119389120391119391118396000000117394117393118393119393121394119395000000000000000000000000118396119395119397119397000000000000000000000000000000119397120399119399119413118413119410119409120409120409120410119412000000117420117419000000119417119417120418121421))
 (.node 1 (.leaf 118421117421117420117419119418120418121421121421118422117422117421117420000000121421121421119422000000000000117423117422118422119422120424000000000000117425000000117423118423120424000000000000119427117426117425000000000000000000000000119426119430118430117427117427118428119427119427119429000000118431117430117430118430121430120430119432119435118435117434118431000000119432119432119435119436000000118435117434119432119432119435119435120440119440118437118436118436119437120439120440120440118441119440118437119437120439120440000000119443117443117442118441120440000000119442119443118448117448117447117446118446119445119445120446118449117449117448117447118447119445120446119449118450118450117449117448118448120446119449119450119455118455118454118453118452119452119454120455000000117459118457119457000000000000000000000000120465119464118462117462119461121462120462121465120465117466119466119464120465121465120466120467118467118467117466117466120465120467121467119468118471118470117470117470119468119468121470121471118471117471118470117470119469121470121471119472119476118476118475118472119472119472119473121475119477119476118476118475118473119473121475119477120479119479118477119477000000119477000000120478118482117482118482118481119479120479119480119482120491117490118489118488119488121489121490121490120491117491117490118489119489121490121490119492120495118496118493119493119492119493121495121495120497117498118497118496120495121495120495120496118499118500117498117498120497120496121497120500119501118501118500117498119497121497120500121501)
 (.leaf 120501119501118501118500118499120500121501121501120503118503119502119502120502121502121502121503120505118505118504118503120503121503120504121505120509118509119508119507120507121508120508121509120510118510118509119508120508120508121509120510120511118511118510118509120509121509120510121511120514119515119512118511120511121511121513121514120520117520119518119518119517121518121520121520120521117521117520119518119518121520121520120520119523117521117521117520120520121520120520121521120523118522117521117521120521120520121521121523119526119525118523118522120523121523120523120526118528117528000000119526120526120527120528121528000000117528117528000000120528120528121528121530118530118531117528117528118528121528121530120529118530000000118531117528000000121530120529000000000000118531000000118531118530120529000000120533118533117533118531000000118530000000120533120534120535118534117534117533118533120534120535121535118537117536117536118534120535121535121536121537120538117537117536117536119535121536121537121538119540118540117537117536118537121537121538121539118541118541118540117537120538121538121539121540120543119542000000118541118541121540121541120541120547118547118544119544119543120543120546120547119548119548118547118544120546120546120547120548119549119548119548118547120547120547120548120549119553119553118552118551120550121550119550120551120554119554119553118552119550119550120551120554120558119557118557118554120556121556121557120558120560117559118557119557120558120558121558121559120561119561117559118557120558121558121559121561)))
 (.node 2 (.node 1 (.leaf 119562118562119561117559120560121559121561120562120564119564118564119562120562121562121562121564120567119567118567119565120566120566120567121567120569119569119569119567120567121567120569120570119572119571118571119569120569120570121570121570119576119575117574119573119572120574120575119575119579117579118578118577118576121576121577120577119587118587119586118585120584120585121585120587119593119593119590119590120590120591120592119592118596117595118595118594118593121593121594120594118596117596117595118595118594121594120594120597118597117597117596117595118596120594120597120598120599117597117597117596118596120597120598120599119600117600117597117597118597120598120599119600119601118601117600117597120599120599119600119600000000000000000000117602000000119601120603000000000000000000000000000000000000120603000000000000000000000000000000000000000000000000000000000000000000000000000000000000000000000000000000000000000000000000000000000000000000000000000000000000000000000000000000000000000000000000000000000000000000000000000000000000000000000000000000000000121129000000119128000000000000000000000000000000000000000000000000119128120128000000000000122131000000000000000000000000121129000000122131000000000000000000000000000000000000122131000000000000000000118135000000000000000000000000000000000000121136119136118136118135000000000000122136122136121138120138119136118136120135122136122136121137119142119144118141120141121141122140121141121142119144118143119144118141121142121141121142000000119145118145118143119144119142121142000000120145)
 (.leaf 121148118146118146118145119145120145121145000000000000120148118146118146119146121145000000000000121151120150000000120148000000000000121150121151120154120153120151118150121151121152121153121154121160118160119157120157121158121158122158122159121161118160118160119157120157122158122159122160121162120162118160118160121160122159122160122161120163119163120162118160121161122160122161121163000000120172120172120170000000000000000000000000000000120177119174120174000000000000000000000000121177119178120177119174000000000000000000000000000000000000000000000000121181000000000000000000121193119193120194120192000000000000000000000000119196119197118196119193121193000000121194120196000000000000000000119197119196120196000000000000000000000000000000000000000000000000000000121339121342119341119340000000000000121339122341122342121343118343119341119340120340122341122342122343121344120345118343119341121342122342122343121343121344120345120345118343121343122343121343121344121351120351120351120349120348122349122350000000120354120354120353120351121351000000121353122354121357119359120356120356121357121357122358122358121361120362120362120360121360122359121360121361120365119363120362120362121361121361121362121363120366119366119363120362120362121362121363121366119370118369118368119368119368120367120369120370119374118374118373118373119373120372120373120375119380119379118378118378119377120377120378121379120386119386119383119382119382120382120383121386120387119387119386119383120383120383121386121387119393118393118392118390119391120391120391121394))
 (.node 1 (.leaf 121394118394118393118392119392120391121394000000119395118396118394118393119393121394000000120395119397000000119397118396119395120395120395120397119399000000000000000000119397120397120399120399119401119400119399000000119399120399120399120401119405119404119403119402119402120402120403121404119405119405119404119403119404120403121404120406120409119407119406119405119405120406121408121409000000120409119407119406121408121408121409121410119412119413119412120409120409121411000000121413120414120414119413119412120410000000121413120414000000120414120414119413119412121413120414120414119415119415119414120414000000120414121414121415119416119416119415119414119415121414121415121416119417119417119416119415119415121415121416120418121421000000119418119417119417120418122419121421121421118421000000119418120418122419121421000000119422118422118421000000121421121421000000120422000000000000118423118422119422120422121422121425119426119427000000000000000000121425000000121425119427118428119427000000000000000000121425120427119429119430118428118428119427120427122429000000121430118430119430118428119427122429000000121429119432000000119432118430121430121429121432000000119432119432000000119432120430121432000000121432119435119435119432000000119432000000121432121435119435119436119435119432119432121432121435120436119437118436119436119435119435121435120436120436120440120440119437118436119437120437120439120439119443119443118442120440000000120440121442120443119444118444119443118442119442121442120443120444119450118450118449118448120446120447121449121450)
 (.leaf 120451118450118450118449119449121449121450120451119451118451118450118450119450121450120451120451119454118453118452118451119451120451121453120453000000120456119455118453119454120453120455000000121461119460119459000000000000000000000000000000121462119461119460119459000000000000000000121461121465120465119462119461121462121461121462122465120466120465120465119462120462121462122465000000119468119468118467118467121467121468000000000000121470119469119468118467119468000000000000000000121471118471119469119468119468000000000000000000119472118471118471119469121470000000000000121471119472119472118471118471121471000000121471122473119473118473119472118471119472121471122473122474121475119476118473119472119472122473122474121476119477119477119476118473119473122474121476121477119477000000119477119476121475121476121477120478000000119477000000119477119477121477120478120478119480119482119479120479120478121478121479120482119482118482119482119479120479121479120482122483119487118487119485119484120484120485122486122487119488118487118487119485120485122486122487121489121489119488118487118487119487122487121489000000121490119489119488118487119488121489000000121489121490120491119489119488121489000000121489120491119493119492120491120491121490120491122491120493121495120495119495119492119493120493121495122495120500118499119497120497120496121496121497122499121501119501118499119497121497121497122499122500121507119506120505119504120504121504122505121506121514120514120512120511121511121511122512122514121516120516119514120514121514122514122515122516)))))))
 (.node 32 (.node 16 (.node 8 (.node 4 (.node 2 (.node 1 (.leaf 121518119517119516120516121516122516122517122518121520119518119517119516121517122517122518122519121520120520119518119517121518122518122519122520121523120523119523120521120520122522122522121522120527120526119526119525120523121523120524122525000000118530118530000000121530121530121531121532120533000000118530118530120529121531121532121533120534118533000000118530000000121532121533121534121537118537119535120535121535121536121537121538121538120538118537119535121536121537121538121539121540118541119540120538121538121539121540121541121541119542118541119540121539121540121541121542120546120546119543119542120542121544121545121546120547120547120546119543120543121545121546121547121555120555120554119553120551121551120552122554121558120558120558118555121557122556122557122558121561120561120560120558121558122558122559122560121564120564119564120562121562122562121564121565120567119567120566120564121564121565121566121567120570120569119569120567121567121568122568121570120573120572119572119571121570122570121572120573121577119578118576119576119575120574121575121576121578119580119579119578121577121576122578122579121580119581119580119579120577122578122579121581120582119582119581119580121578122579121581120582120583119583119582119581121580121581120582122583120590119590118588119588119587121586121589121590120591120590119590118588119588121589121590121591121594118594118593119593119592120592121592121593120597118596118596118594121594121593122594122597120598118597118596118596120594122594122597120597119601000000119601119600119600120599121599120601)
 (.leaf 119601120601121603000000000000000000000000000000000000000000000000000000000000000000000000000000000000000000000000000000122131000000121129120128000000000000000000000000000000000000000000121129000000000000000000122131000000000000000000000000122131000000122131000000000000000000000000000000000000122131000000000000122136120135000000000000000000000000000000000000120145119145119144119142121142121143122143121145000000121148119146119145120145121145000000122148000000000000121148119146121145000000122148122149120157120157120156120155120154121154123156123156121158121158120157120156120155123156123156122158122158120157121158120157120157123156122158123159122160121161121160120157122158123159122160123161122165121165120165120164122164123163122165123166122168120168121167121165122165123166123167000000000000000000120170121168122169000000000000000000000000000000000000120170000000000000000000000000000000120180120179121177000000000000000000000000000000121181120180120179000000000000000000000000000000000000121181120180000000000000000000000000120196119196120194121193000000000000122194121196000000000000000000119196120196121196121196000000000000000000000000000000000000121196000000000000000000000000000000000000000000000000000000000000122341120340000000000000000000122338121339123340122342121342120340000000121339121339123340123341122347120346120345121344121344123345121345123347122348120347120346120345120345121345123347123349122349120348120347120346122347123347123349123349122350120351120348120347122348123349123349123349))
 (.node 1 (.leaf 121351120351120348122349123349123349122352122358120358121357120356122355123356123356122358122359121359121357120358122358122358123358000000121366120366120365120362121362122362122365121366120366120367120366120365121363122365121366121366120370119370119368119368120367121367121369121369120373119373119373119372120372121372121372121374120376119376119375119374120375121375123376121377120380120380119380120378120378122378121379122382120382119382120381120380120380122382121381123384120383120383119382120381120381121381123384123384121386120386120383119382120382123384123384123385121387120387120386120383120383123384123385123385000000121394119393119392120391121392122394121394120395119397119395121394000000121394122396122397120397119397119397119395120395122396122397121398120399120399119397119397120395122397121398121398120406119405119405119404120403121404121404121407121408121408119405119405121404121404121407121407120414120414119412120410000000121411122413122414120418119417119416119415121415122415122418123419122419120418119417119416121416122418123419123419121421121421120418119417120418123419123419121420121425000000120424119422120422121422122422121424120427119427119426000000000000000000000000122426122429119427119427119426121425000000122426123429000000119429119427119427120427122426123429000000000000119432120430121430121429123430122432121432121435119435119432119432000000121432121432122433120436119435119435119432121432121432122433121436120439120439119437119437120436121436122438121438120440000000120440120439120439121438121440122441)
 (.leaf 120443119443119442000000120440122441122442122443120444119444119444119443120443122443122444122445120445119445119444119444120444122444122445121446120446119445119445119444120444122445121446122447121449119449120446119445120446122447122448121448120453119454119452119451120451121451121453121453000000000000120455119454120453121453122455123455000000000000000000120455120455122455123455000000000000000000000000000000000000123455000000000000122465121465120462121462121461121461123463123464000000120466121465120462121462123463123464122466121468121467120467120466000000122466123466122466122473119472119472121471000000123471123472122474122474119473119472119472121471123472122474122475121476121475119473119472122473122474122475123475122483119482119480120479121479121480123480122483120482120482119482119480120482123480122483122484120484120483120482119482122483122483122484123485120485120484120483120482120482122484123485123486122486120485120484120483120484123485123486123486122487119487120485120484120485123486123486123486121489119488119487120485122486123486123486122487000000121489119488119487122487123486122487121489122491119492121490121490121489123490123490123492120493119493119492121490120491123490123492123493121495121495119493119492122491123492123493122495122495121495121495119493120493123493122495123495122499120500121497120496121496122496123498123499122500121501120500121497121497123498123499123499122500121501121501120500122499123499123499123500122512121513121511120510121510122510122511122512122516121516121516121514122514123514123515123516)))
 (.node 2 (.node 1 (.leaf 122520121520121520121518122518123518123519123521120524120526120523121523121522122522122523122524122525120527120526120523121523122523122524122525122527120528120527120526120524122524122525123527121529121528120528120527122525122525123527123528120552120554120551119550122551123551122551123554122554121555120554120551121551122551123554123554122556121556121555120554120552123554123554123555122561120562121561121559122559123558123560123561121565121564121562121562122562123562123563123564122570121570120570120569122568122569122570122571120573120573121570121570122570122571121572121572120574120575120574120573120573121572121572122575120574119575120575120574120573121572122575121575121581121580121578120577122578122579122580122581121584121584120583120582120582122582122583122584121585120585121584120583122583122583122584122585121589119588119587120587120586122585122586121589121590120590119588119587121586122586121589121589122597120597120594121594121593122593122594123595120597120598120597120594122594122594123595121598121599120599120598120597122597123595121598121598120601119601119600119600120599121599122601122602121603120603119601119600121599122601122602122603000000000000120603119601120601122602122603000000000000000000000000000000000000000000000000000000000000000000000000000000000000000000000000000000000000122131000000000000000000000000000000000000000000000000000000122131000000000000123131124133000000000000000000000000122131123131124133000000000000000000000000000000000000124133000000000000000000122136000000000000000000000000000000000000)
 (.leaf 121137121137122136122136000000000000000000124138123138121138121137122136123137000000124138124140123140122140121138121137121137124138124140124140121142121141122140122140123140124140123140124142121143121142121141122140121141123140124142124142000000121145120145000000122143122144122144123147122148000000121145120145121145122144123147124147122149000000000000121145000000123147124147123149121152121153121152121151000000000000124152124152121153121154121153121152122150124152124152122153123156120155120154121154121153122153122153123156123156120157120155120154121154122153123156123157122158121158120157120155123156123156123157124157123159122158121158120157123156123157124157123159000000122169122168122166123167000000000000000000121196120196121194000000000000000000124194123195121196000000120196121194122194124194123195124197000000000000000000120196121196123195124197000000000000000000000000000000121196124197000000000000000000000000000000000000000000000000000000000000000000000000000000000000000000000000000000000000000000000000000000000000000000000000000000000000000000000000000000000000000000000000000000000000121339121339000000000000000000122337123338123339123340122341121339000000122338123338123339123340123345121344121343122343122342124344124344124345121345120345121344121343122343124344124345124345123347122347120345121344123345124345124345124347123352121353000000122350123349123349123352123353122355121355122354121353123352123353123354124354122358122358121357122355123356123356123357123358123358122358122358121357123356123357123358124359))
 (.node 1 (.leaf 122365121363121362121361122361123361123362123363121366121366121363121362122362123362123363122366121371120371120370120370121369122369123371122371121375120375120373120372121372122373124373123374123376120375120375120373121374124373123374123375121377120376120375120375121375123374123375123376121378120377120376120375123376123375123376123377121379121379120378120377121378123377124379124380122382120380121379120378122378124379124380124381121381120381120380121379121379124380124381124382123384120383120382120381121381124382123384124385123385121386120383120382123384123384124385124385123385121387121386120383123384124385124385124386121388121388121387121386123385124385124386123386121388120388121388121387123385124386123386123389121389120389120388121388121388123386123389124390121390120390120389120388121388123389124390123391121391120391120390120389121389124390123391124391121392120391120391120390121390123391124391123393122394121394120391120391121391124391123393122393122397120395120395000000121394122394123396000000121401120401120399120399121399122399123401122401121404120403120402120402121402122402122404122404121407120406121404120403121404122404124405124405121407121408120406121404121404124405124405124407121408121409121408120406121407124405124407124407121409121410121409121408121407124407124407122410121410121411121410121409121408124407122410122410122413121413000000121411121410122410123412122412122418121416121415121414121414123414123415000000123419120418121416121415122415123415000000123419121422000000121421122419123419123420123421122421)
 (.leaf 121424121425121422120422121422123421123422123423000000000000121425121422122422123422123423123426000000121425000000121425121424123423123426000000123429122429120427121425000000000000000000000000000000000000122429120427122426000000000000000000122432121432121429000000000000000000000000122432121432000000121432121429123430000000122432122432121436120436121435121432121432122432123433122435122438120437120436120436121436122435123437123438121438120439120437120436121436123437123438122438122441120440120439120439121438122438123438123441122442121442120440120439121440123438123441122442122448120447120446120445121446123446124447124447121451120451120451121450121449122449123451122452122455120455120453121453121453122452124454123455123455000000120455120453121453124454123455123456000000000000000000000000123455123456123457000000121461121461000000000000000000000000000000000000123463121462121461000000000000000000000000123462123464122465121462121461121461000000123462123463122466000000122465121462123463123462123463123464123469000000121468121465123466123465123466123469121469000000000000121468122466123466123469123470121469000000000000000000123469123469123470123471123471000000000000000000121469123470123471124471123472121471000000000000121469123471124471123471122474122473121471000000123471124471123471123472121478120478121477121476123475124476124476124476123480120482121479121478122478122479122479000000122483122483120482121479121480122479000000122483122484120482122483120482123480000000122483122484123486122486120485120484123485123485123486000000))))
 (.node 4 (.node 2 (.node 1 (.leaf 121489000000121489122487123486123486123487123488123490121489000000121489122487123487123488123489123490120491121489000000121489123488123489123490123493120493122491120491123490123490124492123494122495121495120493122491123492124492123494123495123495122495121495120493123493123494123495124495123498121497121496122495123495123495123496124497123499122499121497121496122496123496124497123498123514122514122512121511122511123513123514124515123522122522122522122520123521124520124521124522123527122527122525120524122524124525123527124528123529121530121529122527123527124528124528124529123530121531121530121529123528124528124529124529000000121532121531121530123529124529124529124531122533121533121532121531123530124529124531124531122534121534121533121532000000124531124531123534121536121537121536121535123534124534123534123535121538121539121538121537121536123535123536000000121538121540121539121538122536123536000000122539121540121542121541121540121538122539000000123542121543121544121543121542121540123542124542124543121544121545121544121543122541124542124543123545123546121546121545121544121543124543123545123546123546121547121546121545121544123545123546123547123547121548121547121546123546123546123547123548123549120549121548121547123546123547123548124548122550122549120549121548123547123548124548123550123554120552121551122551123551124550124551124553123554122554120552121551122551124551124553124553123556122556122556122554123554124553124556124557123564121565121564122562123562123563124563124564121565121566121565121564123563124563124564123566)
 (.leaf 122567121567121566121565123564124564123566123567122568121568121567121566121565123566123567122567121572120573120573121572121572122571123571123572122575120574120573120573121572123571123572122575121575120574120574120573121572123572122575122576122579122578121576121575121576122576122578122579121589121589121586120586122585123585123586123589121589121590121589121586122586123586123589123590122591121591121590121589121589123589123590123591122592121592121591121590121589123590123591122591123595122597122594121593122593123593123594123595121598120597122597122594122594123594123595122597121599120599121599120597121598122597123599123600122601121599120599121599121598123599123600123601122602120601121599120599121599123600123601000000000000000000000000000000000000000000000000000000000000000000000000000000000000000000000000000000000000000000000000000000000000000000000000000000000000000000000000000000000000000000000000000000000000000000000000000000000000000000000000000000124133000000122131000000000000000000124131124132000000000000000000122131123131124131124132000000000000000000000000000000124133124132000000000000000000123137000000000000000000000000000000000000124140123140123138121137124138000000124138124139124142121142121141123140124140124139125141125142124142121143121142121141123140125141125142125143122144122143121143121142124142125142125143124143122144121145122143121143124142125143124143125146123147000000121145122143122144124143125146124147124147122148000000121145122144125146124147124148122149121149122149122148124147124148123149123149))
 (.node 1 (.leaf 124152122150000000121149122149123149000000125152124152121152122150000000000000000000125152000000122153121153121152122150124152125152000000123153123156123156121154121153122153123153124155000000123157123156123156121154122153124155000000124157124160122160123159122158124157124158125159125159123162122162123161122160124160125159125161123162000000123167123166122165124165125165000000000000124194122194000000000000000000000000000000124194124197121196121196122194124194124194125196125197000000000000121196121196123195125196125197123198000000000000000000000000000000000000000000000000000000000000000000000000000000000000000000000000000000000000000000000000000000000000000000000000000000000000000000000000000000000000000000000000000000000000000000000000000000000000000000000000000000000000000000000000000000000000000000000000000000000000000000000000000000000000000000000000000000000000000000000000000000000000000000000000124344122342123341123340123340124342124343124344124344122343122342123341123341124343124344000000124345123345122343122342124344124344000000124344124347123347121345123345124345124344125346124346124349123349123349123347124347124346124347125349123352122352123349123349124349125349124349124352123353123352122352123349123349124349124352124353123357123356123356122355124354125354125355124355122366121366122365122362123362124362125364125365122367121366121366122365123363125364125365125365122367121367121366121366122366125365125365125367122368121369121367121366122367125365125367125367122369121369121369121367122367125367125367124370)
 (.leaf 123371121370121369121369122368125367124370123371122371121371121370121369122369124370123371123372124373121374121372121372122372000000124372124373124379122378121378121377123376123376124379124380124380121379122378121378123377124379124380124381124381122382121379122378124379124380124381124382124382121381122382121379124380124381124382124383123384123384121381122382124381124382124383124384124385123384123384121381124382124383124384124385123389121388121388123385124386124387124388124389124390121389121388121388123386124388124389124390124391121391121390121389124390124390000000124390122393122394121392121391124391124390124391123393123396122396121394122394122393123393124395123395122398121398121398122397000000124397124398124399122399121399121398121398122397124398124399124400123401121400121399121398122398124399124400123401122401121401121400121399122399124400123401123401122404121403121402121401122401123401123403123403124405121407121404121404122404123404123404124405124407121407121407121404124405123404124405124406124407121408121407121407124405124405124406124407122410121409121408121407124407124406124407124410122410121410121409121408124407124407124410123410122414121414122414122413122412123412124412124413000000122418122415121414123414124414125416123417123420123419123419122418000000123417124419124420123426000000121424122422123422124422124423125425000000000000000000121424123423124423125425124427000000123429122426000000000000124427000000000000000000000000123429122426000000000000000000000000122432121432122432123430000000000000124430125432)))
 (.node 2 (.node 1 (.leaf 122432121432121432122432122432124430125432123433123437121436121436122433123433123434124434123437123438122438121436121436122435124434123437123437123441122441121440121438122438123438123438124441122442122442122441121440123438123438124441123442124447122447121446122445124445124445124446125447124448121448122448122447124447125447124448124449122449121449121448122448124447124448124449124450123451122451121449121448124448124449124450123451122452121451122451121449122449124450123451124452124454121453121453121451122452124452124453124454123455122455121453121453122452124453124454124455123456123455122455121453124454124454124455124456123469123469122466123466123465124465124466124469123470121469123469122466123466124466124469124470124474122475122474123472123471125472125473125474124476123475122475122474123472125473125474124476124476121478122477123475124476124476124477125477122478121478121478122477124476124477125477125477122479122478121478121478124476125477125477125478122479121480122478121478122478125477125478125480122483122483123480121480122479125480125481124483122484122484122483123480000000125481124483125483123485123485122484122483122483124483125483124485123486123486123485122484122484125483124485123485124492123492123490123490123489125489125490125491124497123498122496123495123495125496124496125498122505122504122503122502122503124502123503124504122506122506122505122504122505124504124505123507122510122509122508122507123507124507123508123510123514122512122511122510122510123511123513124514124519123518123518123516124517125517124518125519)
 (.leaf 124521123522123521123519124519125519125521125522124525122524122523122522124522125524124523124524123527122525122524122523123523124523124524125526124528123527122525122524124525124524125526125526124531122533000000123530124529125530125532125532123534122534122533000000124531125532125532125533124534123534122534122533124531125532125533125534000000121538122536121536123535124537125537125538122539121538121538122536123536125537125538125539000000122541121538121538000000125538125539125541123542121540122541121538122539125539125541125541124542122541121540122541000000125541125541125542123545121544121543122541124542125542125543124543123546123546121544121543124543125543124543125545124553123554122551123551124550124550124551124552124553123554123554122551124551124551124552125554124560123560123558123558124559125558125559125561122570122571122570122569122568123568123568124571122571121572122571122570122569123568124571124572122575122575121572121572123571123572123572125574122576121575122575121572123572123572125574124576122576121576121575122575122575125574124576123576122579122579122578121576122576123576124578124579123580122580122579122578122578124578124579124580122580122581122580122579122579124579124580123580123583122583122582122581122580123580124580123582122585121585122585122584122584124584124585123585123589121589122586122585123585124585124586124589123590121589121589122586123586124586124589124590122597121598123595122594123594124596125596125596123599121598121598123595123595125596125596123598000000000000122603122602000000000000000000000000))
 (.node 1 (.leaf 124133124132126133125133000000000000000000000000000000000000125133000000000000000000124138000000000000000000000000000000000000125142124142123140124140124139126140126140125141125146122144122144124142125143126143126143125144124147123147122144122144124143126143125144125147124148124147123147122144125146125144125147125148000000124152124152000000000000124150126151126152124155122153122153124152000000126152000000125153000000123156122153122153123153000000125153125156124158124157123157123156000000125156125157125158125161123161124160123159125159125159126160126161124163123163123162123161125161126161126161125163125164123164123163123162123162126161125163125164000000000000124165123164125164125164000000000000125196123195124194000000000000000000126195126195125197124197123195124194124194126195126195125198000000000000000000124197125197125198126198000000000000000000000000000000123198126198000000000000000000000000000000000000000000000000000000000000000000000000000000000000000000000000000000000000000000000000000000000000000000000000000000000000000000000000000000000000000000000000000000000000000000000000000000000000000000000000000000125333123335000000000000000000000000000000125333125334123336000000000000000000000000125333125334125335123337123336000000000000123335125334125335126337124341123339123338122337124337125337125338125341)
 (.leaf 124342123340123339123338124338125338125341125342125349124349123349124347124346125346125347125348124352123352123349124349125349125348125349124351124358123358123357123356125355126355125355125358125359124359123358123357124355125355125358125359125364123363123362123361124361126362126363126364125365122366123363123362124362126363126364125364125365122367122366123363125364126364125364126365125367122367122367122366125365125364126365125366125367122368122367122367125365126365125366125367124370122369122368122367125367125366125367124370123371123371122369122368125367125367124370124370000000122372122371123371123371124370124372124372123376123376123375123374124374125374125375125376124379123377123376123375124375125375125376125377124380124379123377123376123376125376125377124379123393122393123393124391124390124391125391125392124395122394122393123393124391125391125392126393123395123396122394122393123393125392126393125396124398122397000000123396123395125396125397125398123403122402122401123401123401124400125402125403123403122404122402122401123401125402125403124404123404122404122404122402123403125403124404124404123412122412123412122410123410124410125410124412125416123415123414122414124413125413125416000000123417000000123415123414124414125416000000125416124419123419000000123415125416000000125416125417124420123420123419000000123417125416125417124420125425123426123423123422124422125422125423126425124427000000123426123423124423125423126425126425000000000000000000123426125425126425126425000000000000000000000000000000000000000000000000000000)))))
 (.node 8 (.node 4 (.node 2 (.node 1 (.leaf 125432122432122432000000000000000000000000125431123433122432122432122432124430000000125431125432123434123433122432122432125432125431125432126434123437123437122435123433123434126434126435124436123438122438123438123437123437124436124436125437123438123438122438123438123437124436125437125440124441123441123438122438123438125437125440124441123442122442123441123438123438125440124441124441123444123444122443122442123442124441124441125444124445124445123444122443123443124441125444124445124446123446124445123444123444125444124445125446124453122452122452123451123451124450124452124453000000123463123462000000000000000000000000000000123464123464123463123462000000000000000000000000124469123469123466123465124465125467125468125469124470123470123469123466124466125468125469126470125473123472123471124471125471000000000000000000125474124474123472123471125472000000000000125473124477124476124476124474125474125473125474125477125478122479122478124476125477000000125477125478125480122479122479122478125477125477125478125479125481000000122479122479125478125478125479125480124483122483000000122479125480125479125480125483125483122484122483000000125481125480125483125484123485123486123485122484125483125484125485125486123486123486000000123486123485125486125487124487123489123488123487123486123486124487124487126488125489123489123488123487123488124487126488126490125490123490123489123488123489126488126490126491125491124492123490123489125489126490126491126492124495123495123494124492125491126492126493126494125495124495123495123494125494126493126494126495)
 (.leaf 125498123498124497123496124496126496126498125498123502123501123500124499124499125499124502124502123503122504122503123501123502124502124502124504123507122506123505122505124504124505124505125506123508123508123507122506123507125506124507125508123510122510123508123507124507124507125508126510123511122510122510123508123508125508126510125510123513123513122510122510123510126510125510125513124514123514123513122510123511125510125513125514124515124515123514123513123513125513125514125515125526124528123527124525124524125526126526126528125527124528124528123527125526126526126528126529125532124531124529124529124528126529126530126531125533123534124531124531125532126531125533126534125534124534123534124531125532125533126534126534124537123535123534124534125534126534126534125537125537123536123535123534125535126534125537126537125539122539000000123536125537126537126538126539125541000000122539000000125538126538126539126540125541123542000000122539125539126539126540126541125542124542123542000000125541126540126541126541125545123546123545124543125543125542125545126545125545123547123546123545124543125545126545126546124548123548123547123546125545126545126546126547125548124548123548123547125545126546126547126547125555124556124553124553124552126552125555126555125556124557124556124553125554125555126555126556123563123563124562124560125561124560126560124562123567123567123566124564125564126564125566124566123568122568122567123567123567124566125566124568124571122570122569122568123568124568125570126571124572122571122570122569123568125570126571126571))
 (.node 1 (.leaf 125574122575123572123571123572125573125574125575124576122576122575123572123572125574125575124575124579122579122578122576123576125577125578125579124585122585122584123583123582124582125582124584124589123589123586123585124585124586124586126588124590123590123589123586124586124586126588125590123592122592122591123591123591124590125590124592124596123594123593122593124592124593125595126595125596123595123594123593125594125595126595126596123598123599122597123595125596126596125596125599123600123600123599122597125596125596125599126599124601123601123600123599123598125599126599000000000000000000123601123600123600126599000000000000000000000000000000000000000000000000000000000000000000000000000000000000000000000000000000000000124131124131000000000000000000000000000000000000126133124132124131000000000000000000000000000000000000000000000000124132126133000000126133127134000000000000000000000000125133126133127134000000000000124138000000000000000000000000000000000000126140124139124138000000000000000000000000000000126140125141124139124138000000000000000000000000125147124147125146124143126143126143126144126145126151125152000000123149124149125149000000126152126152000000125152000000124150000000126152000000125156000000124155123153000000125153127154125156125157124157000000124155125153127154125156125156126161123162125161125159126160126160126161127162125164125164124163123162126161127162127162126164126195124194000000000000000000000000000000000000126195125196124194000000000000000000000000000000000000000000000000123198126198126197000000000000)
 (.leaf 126337123337123336123335125334126334126335126336125341124341124338124337125337126337126338126339125342124342124341124338125338126338126339126342126344124344000000124344124343000000127343126344124351124352124349125349125348125349125349125351125354124354124353124352124351125351126353127354126354125354124354124353124352126353127354127354125358124358124355125355126355127355126357126358125359125359124358124355125355126357126358127359126362124361124360125360125359127361127361127362126363124362124361124360126361127361127362127363126364125364124362124361126362127362127363127363124370124370125367125367125366126366126367127368124370123371124370125367125367126367127368125371124372123372123371124370124370127368125371125371124379124380124379123376125376125377125377126378125381124381124380124379125377125377126378126381124382124382124381124380124379126378126381126382124384124384124383124382124382126382126383126384125385124385124384124383124383126383126384126385125386124386124385124384124384126384126385125386126393124395123393124391125391127392126392126393125396123395124395123393125392126392126393126396125397124397123395124395126393126393126396126397125402123401123401124400124400126400126401125401124407124406124405123404125404126404125405126406124408124407124406124405125405125405126406125409124409124410124407124406124407126406125409125409124412123412123411123410124410125410125410126411125416124414124413124412125412125413127415127415000000125416124414124413125413127415127415125416124420124421124420124419125417125418126418125421)))
 (.node 2 (.node 1 (.leaf 124421123421124421124420124420126418125421125421126425125425124423124422125422126422127423127425000000000000124427125425126425127425126425000000000000000000000000124427126425126425000000000000126434123434123433125432125431000000126432126435126435124434123434123433125432126432126435127435124436123437124434123434126434126435127435127435124436123437123437124434126435127435127435125437125440123438123438123437124436125437125437126440124441124441123438123438125437125437126440125440124441123443123442124441124441125440126442126443125444123444123443123442124441126442126443127443124445124445123444123443124441126443127443126445125447125447124446124445124445126445126446126447124450124450124449124448126448126448125449125449124452124452123451124450124450125449126451126452124453124453124452123451124450126451126452126453125454124454124453124452124452126452126453126454125455124455124454124453124453126453126454126455000000000000000000000000000000126459000000000000125467124465123464000000000000000000000000000000125468124466124465123464000000000000000000000000000000125471124471124470126470000000000000000000125477124477124476125474125473000000126474127476000000125477124477124476125474126474127476125477125484125483124483125481125480127481127482126484126488123489123488123486124487125487126487126490126493125494125491125490126491127491127492127494126494124495125494125491126492127492127494126495126498125498124496125496126495127496127497127498124502124500124499125498125498126498126499126500124502123502124500124499125499126499126500125502)
 (.leaf 124505124504123503124502124502125503125503126504124505124505124504123503124504125503126504127506124507124507123507124505124505127506127506125508126510123510123508124507124507125508126510000000125513123513123511123510126510000000127511127513125514124514123513123511125510127511127513126514126522125522125521125519126520127520127521127522125525124523125524125522126523127523126524126525126529124528125527125526126528127527127529127530126530125530124528125527126529127529127530127531125533125532125532125530126530127531127531127532126537125537124537125535126534127535127536127537126541125541125541125539126539127539127540127541126545125545124543125543125542127543127544126544126547124548125545125545126545126544126545126546126547125548124548125545126546126545126546126547126552124552124551124550125550127551127552127553125555125554124552124551125551127552127553126553126563125563123563124562126560126560126563127563125570123568123568123568125566125567127569126570126571124571123568123568124568127569126570127571125573123572124572124571126571127571126572125572125578124578123576124576124575126576126577126578124584124585124584123582124582125582126584126585124586123585124585124584125582126584126585125585124586124586124585123585124586125585125585126586126588124589124586124585124586125585126586126589125590124590124589124586124586126586126589125590124590123591124590124589126588126589125590126589124592123592123591123591124590126589126590127591124593124592123592123591125590126590127591126594125595125594124592123592124592127591126594126595))
 (.node 1 (.leaf 125599123598125596125596126596127597127597126599126599123600123598125596125596127597126599000000000000000000124601123600126599000000000000000000000000000000000000124601000000000000000000000000000000000000000000000000000000000000000000000000000000126133124131000000000000000000000000000000127134000000125133126133000000000000000000000000000000000000000000125133126133000000000000127135000000000000000000000000127134000000127135000000127142125141126140126140000000000000000000128141125149124149124149125148125147126147128149126149126152126151124150124149125149126149127151126152127154125153000000126152000000126152128153000000125156125156125153000000125153128153000000128155125156125157125156125153127154000000128155000000125157125158125157125156125156128155000000128158125159125159125158125157125156000000128158127159126160126160125159125158125157128158127159126160126161126161126160125159125159127159126160127161126164125164125163126161127162127162127163127164126165000000125164125163127162127163127164128165000000000000000000126198126197128199000000000000000000000000000000000000000000000000000000000000000000000000000000000000000000000000000000000000000000000000000000000000000000000000000000000000000000000000000000000000000000000000000000000000125333000000000000000000000000000000127331126333126342125342125341125338126338128339128340128341126343125343125342125341126339128340128341128342127348125347125346125345126345127345128347128348125349125348125347125346126346128347128348128349125349125349125348125347127348128348128349128351)
 (.leaf 125351124351125349125348125349128349128351128351126353124352124351125349125349128351128351128352127354125354124352124351125351128351128352127354126358125358125355126355127355128355127357127358127361126361125359126359000000000000127361000000127368124370125367125366126366126367127367127368125371124370124370125367126367127367127368126370125372124372124372124370125371126370127370126372125373125373124373124372125372126372127372126374125377125376125375125374126374126375126375126377126381125381124379125377125377126378127380126381126382124382125381124379126378127380126381126381126388125388125387125386125386127386127387127388126391124390125390125389127389127389000000127391127391124391124390125390127389000000127391000000126396125396126393125392126392127392127393127396126397125397125396126393126393127393127396127397126400124400125399125398125398127398127399127400126401124400124400125399125398127399127400126400125405125405125404124404125404126404126404126406125409124408124407125405125405126406126406126408127415125416125413125412125413126413127415128416125416000000125416125413127415127415128416126416125421124421124420124420126418126419128421126421127425126425125423125422126422126423127423127424000000000000126425126425127425127424127425127428000000000000000000126425126425127425127428000000000000125431000000000000000000000000000000000000126435126434125432125431000000000000000000127433125437124436124436126435127435127436128436128437125437125437124436124436127435128436128437128438126440125440125437124436125437128437128438128438))))
 (.node 4 (.node 2 (.node 1 (.leaf 125440124441125440125437125437128438128438127441126443124441124441124441125440127441128442128442126446125446124445125444127443128444128444128445126451124450124450125449125449126448127448126450126459000000125458125457125456126456126458127459000000125468125467000000000000000000000000000000000000125469125468125467000000000000000000000000000000126470125469125468000000000000000000000000000000125471126470125469000000000000000000000000000000000000000000125471000000000000000000000000000000000000000000000000000000000000000000000000000000125473000000000000000000000000000000000000127476125477125474125473000000000000128476128476125477000000125477125474126474128476128476128477125478125477000000125477127476128476128477128478125478125478125477000000125477128477128478128478125480125479125478125477125478128478128478128480127481125480125479125478125478128478128480128481127482125483125480125479125480128480128481128482126484125484125483125480127481128481128482128482127484125485125484125483127482128482128482127485126487125487125486125485127484127485128485127485125487124487125487125486126484128485127485127486127490126490126488124487126487127487000000128490127498126498126496126495127496128497128498128498125502124502124502125499126499127499127500128503125503124502124502124502126500127500128503128504125503124504124502124502125502128503128504128504127506124505124505124504125503128504128505128505127506125506124505124505126504128505128505127506125508124507125506124505127506128505127506127507126510125508124507125506127506127506127507127510)
 (.leaf 126510125508124507125508127507127510127511127513125513125510126510000000127511127512127513126514125514125513125510127511127512127513128513126515125515125514125513127513127513128513126515127529126529126528126526127527127527127528128528127533126534125533126531127531128532128532127532127533126534126534125533127532128532127532128534127536125537126534126534127533128534128535127535127537126537125537126534127535128535127535128538127543125542126541126541127541127540127541127542127544125545125542126541127542127541127542127543127551125550125549126548126548126549127551128551127552125551125550125549125549127551128551127551127555126555125555126552127553126552127553128555126563124562126560124560127560127561127562126563127563126563124562126560126560127562126563128563125567125566124566125566125565126565126565126567126570125570124568125566125567126567127569127570127571126571125570124568127569127569127570128570125574125575125574125573125572126572128573128574125582124582125582124580125580126580126582127583127591124592125590124590126589128590128590127591126594124593124592125590126590128590127591127594126595125595124593124592127591127591127594127595126599125599125596126596127597127597127598127599000000126599125599125596127597127598127599000000000000000000000000126599000000000000000000000000000000000000000000000000000000000000000000000000000000000000000000127134000000000000128135000000000000000000000000000000127135128135000000000000128141127142000000000000000000000000000000128141128143126143126142127142128141128141129142129143))
 (.node 1 (.leaf 126146126145126144126143128143129143127144129146126147125147126145126144128145127144129146128146128149126149125147126145126146129146128146127148127151000000125149126149128149127148129150127150128153125153000000126152126152127151128153128154000000127154125153000000126152128153128154000000000000125156125156127154000000000000128154128157128158125157125156125156128155128154128157128158127159125159125157125156000000128157128158128159126160126160125159125157128158128158128159128160127162127162126161126160126160128160128161127161000000000000000000126165128165128165000000000000000000000000000000000000000000000000000000000000128197126196000000000000000000000000000000000000128199126197126196000000000000000000000000128199000000000000126197126196128197000000128199000000000000000000000000126197128199128199000000000000000000000000000000000000000000000000000000000000126334126334125333125333126333127333129334128334126337126335126334125333126334129334128334128335126337126336126335126334126334128334128335129337126338126337126336126335126337128335129337129338128339126338126337126336126337129337129338129339128340126339126338126337126338129338129339129340128341126342126339126338128339129339129340129341128342126343126342126339128340129340129341129341128342000000126343126342128341129341129341128342128347126346126345126344127344129345129346129347128348127348126346126345127345129346129347129348128351125349125349127348128348129348129349129351128351125351125349125349128349129349129351128352128352126353125351125349128351129351128352129353)
 (.leaf 127354127354126353125351128351128352129353129353128354127354127354126353128352129353129353129354127358126358126357127355128355129354128357128358126366126365126364127363127363128363127364127366126370125371127368126367127367128367127368127370126374125373126372125372126372127371127374127374126375126375126374125373126374127374127376127376126381126381126378125377126378127378128380127380127383126383126382126381126381127380127382127382127386125386126385126384126384128384128385128386000000127391126391127389000000127389127391127391127396126396126393126392127392129393129395128396127397126397126396126393127393129395128396128397126404126404125404125403126403127403128403127405126406126406125405126404126404127405128405127407126412126411125410125410126410127410128410127412127415127415125413126411126412127412128414128415128416127415127415125413126413128414128415128416126417126416125416127415128416128416128417128418126417125418126416125416126416128417128418129418126419126418125418126416126417128418129418129418128421125421126418125418126417129418129418129421126421125421125421126418126419129418129421129421126422125422125421125421128421129421129421127423126423126422125422125421126421129421127423127423127428000000126425127425127424127425127425128426000000000000000000126425127425127425128426128429000000126432000000000000000000000000000000000000127436127435126435126432000000000000128433128434128438125437125437127435128436128435128436128437128438126440125437125437128437128436128437128438127441125440126440125437128438128437128438128441)))
 (.node 2 (.node 1 (.leaf 128442126442125440126440128438128438128441128442128444127443126443126442128442128442128443128444128445126446126445127443128444128444128445128446127447126447126446126445128444128445128446127447127448126448126447126446128445128446127447127447126450126451125449125449126448127448127448127451126451126452126451125449127448127448127451128452127456126456126455126454126453128454128455127455127460000000126459126458126458127457127457128460000000000000000000000000000000000000000000000000000000000000000000000000000000000000000000000000000000000000000000000000000000000000000000000000128476126474000000000000000000000000000000000000128476127476126474000000000000000000000000000000128478125478125477127476128476000000000000129478128478125478125478125477128477000000129478129479128480125480125478125478128478129478129479129480128481127481125480125478128478129479129480128482127485127484126484127482128482129482129483129483000000126490126487125487127486128486129488128490128490127490126490126487127487129488128490128491128494126495127494127492128492000000128492129494128503125502126500126499127499128499128500128503128504125503125502126500127500128500128503129503128504125503125503125502128503128503129503128503128505126504125503125503128504129503128503128504128505127506126504125503128504128503128504128505127510126510125508127506127506128506128509128510127511000000126510125508127507128509128510127511127517126517126516126515126515127514128516127517128535127535127533127533127532129534129534129535128539127539127539127537128538129537129539129539)
 (.leaf 126547126546126545126544127544127545128545127547127551125549126548126547126549127548129550129550128551127551125549126548126549129550129550128550128555127555126553127553126552129553128555129554127561127560125560127558128558129558129559128559127570126570127569125567126567127567129568128570128573126574125572126572126572129571128573129573128574125574126574125572126572128573129573129574126575126576125574126574128573129573129574128576128577126577126576125574128574129574128576128577126578126578126577126576126575128576128577128578127579125579126578126577128577128577128578129578126579125579125579126578126578128578129578128578126582125581125580125579126579128578129580128582127583125582125581125580126580129580128582127582126585125585126585126584126583127583128585127585127589126589126586125585126585127586128586128589126589125590126589126586126587128586128589127589128590126590126589125590126589127589128589128590127594126594127591126590128590128590129592127593127598127597127597126596126596129594128597128598000000000000000000000000000000000000000000000000000000000000000000000000000000000000000000000000000000000000127135000000000000000000129135129136000000000000000000127135128135129135129136000000000000000000000000000000000000129136000000000000129142128143128141000000000000000000000000000000127144128145128143128143129142000000130144130145127148128149126147126146129146129145129146129149129150126149128149126147128146129146129149128149127151126152127151126149129150128149129151129152128153126152126152127151127150129151129152128153))
 (.node 1 (.leaf 128154128153126152126152127151129152128153000000128164127164127163127162127161129162130163129164000000128197000000000000000000000000000000000000000000000000128199128197000000000000000000000000000000000000000000000000000000000000000000000000000000000000000000000000000000000000000000000000129337126337126337126334128334130336130337130338129338126338126337126337128335130337130338130338129339128339126338126337129337130338130338130339129345127344127343128342128342130343130345130345129346127345127344127343128343130345130345130346129347128347127345127344129345130345130346130347128352128351128351128349129349000000130351130352129354128354127354128352129353130352130354130354128358127358127357128355129354130354129357128358127368127368127367126367127367128366130368128370127370126370127368127367128367130368128370128370127371126372127370126370127370128370129370128372127374126374127372126372127371128372129372130374127376126375126374127372127374129372130374128375127377126377126375126375127376128375128377128377127380126381127380126378127378128378128380128380128384126384127383126381127382128381128381128384128385127385126384127383127382128381128384129385127391000000127391000000127389128389128391128391129395127393127392127391127392128392129394130395128396127396127393127392129393129394130395129396128397127397127396127393129395130395129396129397127400126400127400127399127399128398128400128400127402126403126402126400127400128400129402129403127403126403126403126402127401129402129403128403127405126404126404126403127403128403129403129404)
 (.leaf 127407126406126406126404127405129404128405129408127408126408126406126406128405128405129408128408127410126410126409126408127408128408128410128410127412126412126411126410127410128410128410129413128414126413126412126411128410128410129413129414128415127415126413126412127412129413129414128415129421128421126419126417129418000000129418129421129421126421128421126419129418129418129421000000127423126423126422126421129421000000128423128423127425127424127423126423127423128423128425128425128429000000127428127425127425129425129426129429000000000000000000127428128426129426129429000000128441127441128438128438128437129437129438130441128442128442127441128438128438129438130441130441127451126450127448126448127448128447128448129451128452126451126450127448127448128448129451128452127452127453126451126450127451129451128452128452128455127455126453127453127452128452129454129455000000000000000000000000000000000000000000129463000000000000000000000000000000000000129463000000000000000000000000000000000000129463000000000000000000000000000000000000000000128471000000000000000000128476000000000000000000000000000000000000000000128476128476000000000000000000000000000000129480128480128478128478129478000000000000000000129483127485128482128482129482000000000000000000129488127487127486127485129486000000000000000000128490000000127487127486128486000000000000000000128491128490000000127487129488000000000000000000129496128497128496128494129494130493129496130496128503128503127500127499128499129499130501130502129503128504128503127500128500130501130502130503))))))
 (.node 16 (.node 8 (.node 4 (.node 2 (.node 1 (.leaf 128509127507127506128505128505128505129508129509128510127510127507127506128506129508129509129510128513127513127512127511127511128510128512128512128519127519127518127517127517129517128518128518129537128538127535128535129535130535130536130537129539128539128538127535129536130536130537130539127541127540128539128539129539130539130541130541127541127541127540128539128539130541130541130542127543127542127541127540127541130541130542130543127544127543127542127541127541130542130543130544127545127544127543127542127543130543130544128545127547126547127545127544127545128545130546130546127548126549126547127545128545130546130546130547129550126549126549126547127547130546130547129550129550127551126549126549127548130547129550130549129553126552127551128551128550130550129553129554128555127553126552127551129551129553129554130554129554128555127553126552129553129554130554129554127561127562127561128559129559130560129561130562128563126563127562127561128559129561130562129563127564128563126563127562127561130562129563128563127565126565127565128563127564128563129565128565127567126567126565126565127565128565128567130566128570127570127569126567127567130566129569130569128571128570127570127569129568129569130569130570129573128573126572126572129571130572129573129574128577128577126575128574129574130574130575130576129580126580126579127579129578130578130579130581128582126582126580126579128578130579130581128581128589127589126587126585127586130587130587130587127589126589127589126587128586130587130587128590127593127594127591128590128590128591130592130593)
 (.leaf 127594127595127594127591129592130592130593130595129594126596127595127594127593130593130595129596128597127597126596127595127594130595129596130597128598127598127597126596129594129596130597000000000000000000000000127599127599000000000000000000000000000000000000000000000000000000000000000000000000000000000000000000000000000000000000000000000000000000000000128135129135000000130136000000000000000000000000000000129136130136000000000000000000128141000000000000000000000000000000000000130145127144129143129142000000000000000000130144129149127148128146129146129145131145130146130147128149129150127148128146129146130146130147129149128157128158128157128154129154129155130157000000130158128159128158128157128156130157000000000000129160128160128159128158128157000000000000130158128161128161128160128159130158000000130158130161130163128163127161128161128161130161130162130163000000128165128164128163130163130163130164000000000000000000000000128165000000000000000000000000000000128199000000000000000000000000000000000000000000000000128199000000000000000000000000000000000000000000000000128199000000000000000000000000000000000000000000000000000000000000000000000000000000000000000000000000000000000000000000000000000000000000000000000000000000000000000000000000000000000000000000000000000000000000000000000000128331128330000000000000000000000000000000129331128333127333127332128330128331129331130331129333130337128335128334129334129333130333130336130337130338129337128335128334130336130336130337130338130343128342129341129341130340131341131342131342))
 (.node 1 (.leaf 130345128343128342129341129341131342131342131344130345129345128343128342130343131342131344131345130352128352129351129349000000131349131350131351130354129353129353128352130352131351131352131352129357128357129354129354130354000000131354129357128358128358128357129354130354131354129357129357128361127361127360127359128359129358129359129361128362127363128361127361128361129361130361130362130368128367127367127366128365129365129366131368128370127368128367127367128366129366131368129369128372127371127371127370128370129369129370129372130374127374127374127371128372129372129372130375128375127376127374127374129372129372130375131375128377127376127376127374130374130375131375131376128377127377127376127376128375131375131376131377128378127378127377127376128377131376131377131378128380128380127378127377128377131377131378130380128380127380128380127378128378131378130380129380128384128384127382127382128381129381129381130384129385128385128384127382128381129381130384130385128385128386128385128384128384130384130385130386129388128388128387128386128385130386130387129388129389127389128388128387128386130387129388129388128391127391127391127389128389129389130389129392128392127392127391127391128391130389129392130393128400127400127399127399128398129398130400129400128405128405127405128403129403129404130404130405129408127407128405127405129404130404130405130408128408127408127407128405128405130405130408129408129417128417128416128415128415129414130416131417129418128418128417128416128415130416131417129417129421129421129418129418000000129418129418130421)
 (.leaf 129421129421129418129418129418130421129421128423127423127423129421000000129421130421130422128425127424127423127423128423130421130422130425128425127425127424127423128423130422130425129425129429128429128426127425129425130425130426130427000000000000128429128426129426130426130427130430128436128435128434128433000000000000000000131436128436128436128435128434129434000000131436131436130441128441128438128437129437129437130438131440130441128442128441128438129438130438131440131440129443128443128442128441130441131440131440131441129444128444128443128442130441131440131441130444128447127448127447127447128446129446130448129448129451127451127448127448128447129448130450131451128452128452127451127448128448130450131451130452129454128454127452128452128452130452131452131453129455128455128454127452128452131452131453131455128457127457128457127455128456130456130457131457128458127457127457128457128456130457131457130459128459128460127457127457128457131457130459129459000000000000000000128460128459129459130461000000129463000000000000000000000000130461000000000000000000000000000000000000000000000000000000000000128471000000000000000000000000000000130469129471000000000000000000000000128471129471000000000000000000129482128482129480000000000000000000000000000000128484129483129483000000000000000000000000000000129486128484129483000000000000000000000000000000129488128486129486000000000000000000000000000000128491128490129488000000000000000000000000000000129491128491128490000000000000000000000000128493128492000000129491000000000000000000000000)))
 (.node 2 (.node 1 (.leaf 130493129494128492000000000000000000000000000000130501128500128499128498130498131499131500131501130502128503128500128499129499131500131501131502130503129503128503128500130501131501131502130502128505128505128504128503129503130503131504131506129508128506128505128504129504131504131506130508129509128509128506128505128505131506130508130509128515128516127514127514128513129513130513129515128521128521128520128519128518129518130520129520129523129523129522128521128521129520130522130523128528128529128528128527128527130527130528129529128529128530128529128528128528130528129529129530130539129539129539129537130537131538131538131539130541127541128539129539130539131539131541131542130542127541127541128539130541131541131542131542130543127543127541127541130541131542131542130542130544127544127543127541130542131542130542130543128545127545127544127543130543130542130543130544130546128545127545127544130544130543130544130545130546127547128545127545128545130544130545131547130547127548127547128545130546130545131547131548129550129550127548127547130546131547131548131549130549129550129550127548130547131548131549130549129554129553129551128550130550130550131552131553130557128555129554128555130554131554131554130555130558129557128555129554129554131554130555131556130562127561128559129559130560130560131560131562128563127564128563127561130562131562131563131563130566127567127566127565128565130564131566131567129569129568127567127566128567131566131567130569130572129571128571128570130569130570130571130572130576128577128576129574130574131575130576130577)
 (.leaf 129578128578128577128576130575130576130577130578130578129578128578128577130576130577130578131578130581129580128578129578130578131578131579130581129583127582128582129580130581130581131581131583128583127583127582128582128581131581131583131583129586127585128585127583128583131583130585131585130587127586127585128585128584130585131585130587130587128589128586127586130587130587131586130589128590127589128589128586130587131586130589129589128591128590128589127589128590129589131590131590130592129592128590128589128591131590131590130593130595127594127593129592130592130593131593130595130597128597129594127594130595130595131595000000000000127599128598128597130597000000000000000000000000000000127599128598000000000000000000000000000000000000000000127599000000000000000000000000000000000000000000000000000000129602000000000000000000129135000000000000000000000000000000000000000000000000129136129135000000000000000000000000000000000000000000129136130136000000000000000000000000000000000000000000000000000000000000000000000000130144000000000000000000000000000000000000129149128149129149129146130146132146131147130149129151129152129151128149129149130149131151132151129153000000128153129152129151132151131153130153000000128157128156129154129155130155131155130157130161128161129160130158000000132158131160131161130162129162128161129160130158131160131161131162000000000000000000000000000000000000000000000000000000000000000000000000000000000000000000000000000000000000000000000000000000000000000000000000000000000000000000000000000000000000000000000000))
 (.node 1 (.leaf 129331128331000000000000000000000000130331130331129333128333128332128331129331130331131331131334130337130337130336129333130333130334131336131337131342129341130340130340131340132340132340131341131342130343129341130340131341132340131341132342131345130345130345130343131342132342132344132344131349000000129347130347130346132347131349132349131351130352130351000000131349132349132350131350000000130354130354130352131352131351131352132354129357129357130354130354000000132354131354131355129357128358129357130354131354131354131355130357129361128361128360128359129358130358130359130361129364129363128362128362130361130362130362131363129365128364129363128362130362130362131363132365129365128365128364129363129364131363132365132365129366128366128365128364129365132365132365132366131368130368128366128365129365132365132366132367129369128370128370130368131368132367131368132369129370129370128370128370129369131368132369130371129372129372128372129370129370130371130373130373131377128377128377128375131375131376131377132377131378128378128377128377131376131377132377132379130380128380128378128377131377132377132379132379129380128380128380128378131378132379132379130380130384128384128381128381129381130381130381130384130385129385128384128381129381130381130384131385129389128389129389129388129388131388130389130389129392128391128391128389129389130389130391130391130394129394128392128391129392130391131393131394130403129403129402128400129400131401131402130403129403128403129403129402129401131402130403130403)
 (.leaf 130408129408128405129404130404131404131405130407129410128410128410128408129408130408130408130410129414128415129414129413129412130412130414131415131417129417128415128415129414131415131416131417129418000000129418129417131417131417132417132418129418129418000000129418129417132417132418131420130421129421129418000000129418132418131420131421129421000000129421129418129418131420131421130421130425128425128423128423130421131421131422131425129425128425128425128423130422131422131425130425130430000000129429129426130426131426131427131428000000000000000000129429130427131427131428000000000000129434000000000000000000000000000000000000131436128436129434000000000000000000000000000000131436128436128436129434000000000000000000131436129437129437128436128436131436000000131436130438131440130441129438129437129437130438130438000000131440130441130441129438130438130438000000131440130444129444129443130441131440131440131441131442129444128445129444129443131441131441131442130444129446128446128445128445129444130444130444131447130448129448128446128445129445130444131447130448129448128447129448128446129446131447130448130448131451129451128448128447129448130448130450131451131452128452128452129451131451131451132451131453131455129455129454128452131452131453131454131455130456128456129455129454131453131454131455131456130457128456128456129455131455131455131456131457129459128459128458128457131457131458132458131460000000000000000000128459129459131460131461130461000000000000129463000000000000130461000000000000000000000000000000129463000000000000000000000000))))
 (.node 4 (.node 2 (.node 1 (.leaf 129471128471000000000000000000000000131469132470000000000000128471000000130469131469132470131473000000000000000000128471129471132470131473000000131495129496130493128493000000000000000000132495131495130496129496130493000000000000132495132496131500129499130498130498131498131497131498131499131501130501129499130498131499131498131499131500131504129504129503130503130502131502132503132504131506128505129504129503130503132503132504132505130508129508128505129504131504132504132505131508130509129509129508128505131506132505131508132508129511128512128510129510129510132508130511130512129515128515128514128513129513130512130513131516129516129517128515128514130513130513131516130516129518128518128518129517129516130516130518130518130523129523129522128521129520131519130522131523130526129526129525129524129524131524130525130526129531129532129531128529129530130529131531131532129532129533129532129531129530131531131532132533129533129534129533129532129531131532132533132534129534129535129534129533129532132533132534132535130536130535129535129534129533132534132535132536131539130539130539130537131538132538132539132539131542130541130541130539131539132539132540132541131549129550130547130546131547132547131549132549131552129553130550130549130549132550131550132552131553129554129553130550130550131550132552131552131554130554129554129553131552132552131552131553131556130558130557129554131554131554132555132556131563129563130562129561131560132560131560132562129564129565128563129563131563132562132563132564131566128567128565129565129564132564131566132566)
 (.leaf 130569129569130566128567131566132566131568130568131575130574129574129573129572132572132573132575131581128581130581130579131579132579130581132582131583128583129583128581131581132582131581132583130585128584128583129583131583131581132583132584131585129586128584128583131583132583132584131586131586130587130587129586131585131586132586131586129589128590130587130587131586131586132589132589131590128591128591128590129589132589132589131592130593130592128591128591131590132589131592131593131595129596130595130593131593132593132594131596000000000000130597129596131595131596000000000000000000000000000000000000000000000000000000000000000000000000000000000000000000000000000000000000129602000000000000000000000000000000000000131601000000000000000000000000000000000000131601000000000000000000000000000000129602131601000000000000000000000000000000000000000000000000000000000000000000000000000000000000000000000000000000000000000000130136000000000000000000000000000000000000000000000000130136000000000000000000000000000000000000000000000000130136000000000000000000000000000000000000000000000000000000000000000000000000000000000000000000000000000000000000000000000000000000130144000000000000000000000000000000000000132146130146131145130144000000000000000000133147130149129149130147130146132146133147132147133149131151000000129149130147131147132147133149132151132151129151000000129149130149133149132151133151130153129153130151129151132151133151132151131154132158000000000000130157131155131156132158133158131160130158000000000000130157132158133158133159))
 (.node 1 (.leaf 131161130161130158000000132158133158133159132159000000000000000000130164132163132164000000000000000000000000000000000000000000000000000000000000000000000000000000000000000000000000000000000000000000000000000000000000000000000000000000000000130331000000000000000000000000000000131328131330131334129333130331129331130331131330132331132332130334130333129333130331131331132331132332132333131337130337130336130333130334132333133335131337132344131344131342131342131341132341133342000000132347130346131345131345132344133344133345132346131349130349130346131345132345133345132346133349132349131349130349130346132347132346133349133349132354000000131352131352131351133352133353133353130357129357129357131354131354132354132355131357130359129359129358129357130357131357131358131360130362130362130361129361130361131361132361132362132365129365129364130362130362132362132363132364132365129365129365129364131363132363132364132365132366129366129365129365132365132364132365132366132367131368129366129365132365132365132366132367132369129369129369131368132367132367133368132369130371129370129369129369131368133368132369132370130373129372129372129370130371132370131371133374131375130375129372129372130373131371133374133374131376131375130375129372130373133374133374132376130380129380130380131378132379133378133380133380130381129381129380130380132379133380133380131381131385130385130384129381130381131382131382131385131386130386130385130384130384131382131385132386131394130394130393129392130391131391131393132394131401129400130400129398130398131398131400131400)
 (.leaf 130404129404129403130403130403131402132404131404130407130408130405130404131404132404132405133406130408129408130408130405131405132405133406131408130411129411129410129409130408131409132409131411130414130414129412129411130411131411131411132414131415129414130414129412130412131411132414131415131416130416129414130414130414132414131415131415131420129418129418129417132417133417132417132420131421130421129418129418132418132417132420131421131425130425130422130421131421133421132422132425130425129425130425130422131422132422132425131425000000000000130430130427131427131427133430132431000000000000000000130430131428133430132431000000000000000000000000000000000000132431000000000000000000131436000000000000000000000000000000000000130438129437131436131436000000000000132436133438130438130438129437131436131436132436133438131439130444129444130444131441131441131442131442131444130448130448129446129445130444131445133445133448130450130450129448130448130448133448133448133449131451131451130450129448130448133448133449132451132451130452131451130450130450133449132451133452131461130461129459130459132458132459133460132461000000000000000000000000130461133461132463131463132470129471130469000000000000132468132469132470131473000000129471130469131469132469132470133471000000000000000000129471132470132470133471000000132495131495000000000000000000000000000000000000132496131497131495131495132495000000000000132496132503130503130502131502131501133502133502132503132505131506131504130503132503132503133505132505132508130509130508131506132505132505133506133507)))
 (.node 2 (.node 1 (.leaf 130511130511129510130509132508133507132508131510130512129512129511130511130511131510131510131512130516129516129515130513130513131514131516131516130518129518129517129516130516131516132518131519130519130520129518129517130518132518131519131519130522130522129520130520130519131519132521131522131523130523130522129520131519132521131522131522131531129530129530129529131527131527131528132531131532129531129530129530130529131528132531132532132535129534129533129532132533132533133534132535132536130536129534129533132534133534132535132536131537131536130536129534132535132535132536133536132541131542131541131539132539133540133540133541130544130543130542131542132541132541132542131544132547131547130545130544130545131545133546133547132552131552130550130549132550133550132550133552132555130555131554131554131553133553132554132557132560131560130560131558131557133557132558133560132562131563131562131560132560133560133561133562131566130564129564131563132563133564133564132566132566131566130564129564132564133564132566131567132573130574129572130572132572132572132573133574132575131575130574129572132572132573133574132575132575130576131575130574132573133574132575132576132577130578130577130576132575132576132577132578131579131578130578130577132577132577132578132579132582131581130581131579132579133580133580133581132583131583131583131581132582133581133582133583131586131585130585131583132583133583133585133585132589130589131586130587132586133585133586133587132589129589130589131586131586133586133587133589132589131590129589130589132589133587133589132591)
 (.leaf 131596131595130595131593132593133593000000000000000000000000000000000000000000000000000000000000000000000000000000000000000000000000000000132600000000000000129602000000000000132600132603000000000000000000000000129602131601132603000000000000000000000000000000000000000000000000000000000000000000000000000000000000000000000000000000000000000000000000000000000000000000000000000000000000000000000000000000000000000000000000000000000000000000000000000000000000000000000000000000000000000000000000000000000000000000000000000000000000000000000000000000000000000000000000000000000000000000000000000000000000000000000000000000000000000000000000000000000000000000000000000000000000133149130149131147132146133147000000134148134149132151131151130149131147132147134148134149134150133151132151131151130149133149134149134150133150131154130153131153132151133151133150134151132153131155130155130154130153131154132153000000000000131156131155130155130154131154000000000000133155132158130157131155130155131155000000133155134157133158132158130157131155131156133155134157134159133161131162131161131160133159134159134161133162131163131163131162131161132159134161133162134162132164132163131163131162133161133162134162133164000000000000000000000000000000000000000000000000000000000000000000000000000000000000000000000000000000000000000000000000000000000000000000000000000000000000000000000000000000000000000000000000131330130331000000000000000000133327132328133329131330130331130331000000131328132328133329132331133335131336130334131334132332133332134334133334))
 (.node 1 (.leaf 131337131337131336130334132333134334133334132336132340132340131339131338131337132337133339133340000000132344132342131341132341133341133342000000133349132349131349132347132346134348134349134349133352131351131350132350133350134351134351134353133353131352131351131350133351134351134353134353133353132354131352131351133352134353134353134353131357130357131355131354132354133354134356133356131357130357130357131355132355134356133356132358131360130359130358130357131357132358132358132360133368131368132367132366132366134366134367134368131371130373130371132369132369134369134371134373133374130373130373130371132370134371134373134373133374131375130373130373131371134373134373134374132376131376131375130373133374134373134374133374132377131377131376131375133374134374133374132377131381130381130380132379133380133380134380133380131382130381130381130380133380134380133380134382131382130384130381130381131381133380134382132383132386131386131385130384131382132383133383133386132387131387131386131385131385133383133386132387131389130389130389131388131388132387132389132389132394131394131393130391131391132391133393133394131394131395131394131393131393133393133394132394131397130396131396131395131394132394132396132396131400131401130399130398131398132398133400133401132402131402131401130399131400133400133401132401131404130404130403130403131402133403133404132404133406130407131405131404132404132405133405133406131408130408130407131405132405133405133406133407131409130408130408130407133406133406133407132410131411130412130411130410132409132410133410133413)
 (.leaf 132414130414130412130411131411133410133413134414131415131415130414130412131411133413134414134414131417131417131416131415131415134414133416134417133417132417131417131416131415133416134417133418131421131421131420132418132417133419133420132420133421131421130421131421131421132420133420133421132425131425131422131421133421133421132422132425131425130425131425131422132422132422132425132425131427131426131425130425131425132425132425132427132431000000131428131427131427132428133430133431000000000000000000131428133430133430133431000000133438130438131436000000000000000000000000133437131439130438130438131436132436000000133437133438131440000000130438130438133438133437133438000000131440131440000000130438131439133438000000133440131442131441131440000000131440000000133440133441131442131442131441131440131440133440133441134443131444130444131442131441131442133441134443134443131445130444130444131442131442134443134443133444133445131447130444130444131444134443133444133445133448130448131447130444131445133444133445133448133448130448130448131447133445133445133448134449133449130450130448130448133448133448134449134450132451131451130450130448133448134449134450134450133452132451131451130450133449134450134450133452131454131454131453132451133452133452133453132454132457131457131456131455131454133455133456133457133461130461131461131460133460133460133461133462131463000000000000130461133461133462133463133464131466000000000000000000132463132464133464134467131467000000000000000000131465133464134467134467133471131473132470131469132469133469133470133471)))))
 (.node 8 (.node 4 (.node 2 (.node 1 (.leaf 131473132470132470133470133471133472000000000000000000131473133471133471133472132474000000000000000000000000000000132476000000000000131498131497132496132496000000000000000000134498131499131498131497132496132496000000134498134499131500131499131498131497131498134498134499134500131501131500131499131498131499134499134500134500133502131501131500131499131500134500134500133501133502131502131501131500131501134500133501133502133506131508132505132504133505134504134505134506133507132508131508132505132505134505134506133507131514130513130512130512131512132512132514133515132518130518130516131516131516132515134516133516131519130518130518130516131516134516133516133517132521131519130519130518131519133517133518133519131522130522131519130519131519133518133519132521131524130525131524131523131522132522133522134524131525130526130525131524131523133522134524132525131526130528130526130526131525132525133525132527132531131531130529131527131527132528134529133529132532131532131531130529131528134529133529134532132539132539132538131537133536134536134537134538131544130544131542132541132541132542134542134544133546130546130545130544131544134544132544134546133547132547130546130545131545132544134546134547133552132552131550132550133550134551133552134552133560132560131558131557133557133557133560134560133562132562131560132560133560134560134561134563131567132566131566132564133564133565133566134567131569130568131568132566131567134567134567134569133570131570130568131568133568134567134569134569131571131571131570130568131569134569134569134570)
 (.leaf 132572132572131571131570133570134569134570134570132573132572132572131571131571134570134570134573132576132575132575132573133574133574133575134576133581132582130581132579133580133580133581133582133582131581132582130581133580133581133582133583133585132586131586132584133585133585134586133585133587132589131586132586133585133585134587133587133589132589132589131586133586134587133587133588131591131592132589132589133589133588134590134592133593132593131593131592131591134592000000000000000000000000131596132594000000000000000000000000000000000000000000000000000000000000000000000000132603131601000000000000000000000000134600000000000000000000131601000000132600134600000000000000000000000000000000000000000000000000000000000000000000000000000000000000000000000000000000000000000000000000000000000000000000000000000000000000000000133147000000000000000000000000000000000000134149133149132147133147000000000000000000135148132153131154132151133151133150135151135152135153000000131154131154132151134151135152135153135154000000131155131154131154132153135153135154133155134157132158131156131155000000133155134157134158134159133158132158131156133155134157134158134159133162133161132159133159134159000000134161134162000000000000132164131163134162134163135164000000000000000000000000000000000000000000000000000000000000000000000000000000000000000000000000133197000000000000000000000000000000000000000000000000000000000000000000000000000000000000000000000000000000000000000000000000000000000000000000000000132328131328000000000000000000000000134327134328))
 (.node 1 (.leaf 132331131330131330131328132328134328134329135331134331132331131330131330133329134329135331134331134334132333132332132331134331134331134332000000132337131337131337133335133334134334134337133338133339132339131337131337132336134337133338134339000000000000133342132341133341133342133342133344134348132346133345133344133344133344134347134348134349133349133349132346134348134348134349134350134356132355132354133353134353134353134354135356132358131357131357132355134356135356135356134357132360131360131358131357132358134357133358133360132362132361131361131360132360133360135360134361134362132362132361131361133360135360134361135362134365132365132364132363133363135364135364135365134366132366132365132364133364135364135365135366134367132367132366132365134365135365135366134367134369132369133368132367134367134367134368134369134371132370132369133368134368134368134369135372134373131371132370132369134369134369135372135373134373133374131371132370134371135372135373135373134374133374133374131371134373135373135373135373132377132377132376133374134374135373135375134377134378132378132377132376133374135375134377135378134378133378132378132377132377134377135378135379134380133380133380133378134378135379135380135381134382131382131381133380134380135381135382135382132383131382131382131381133380135382135382134382133386132386131385131382132383134382135384133386132387132387132386131385133383135384133386133386132389131389131388132387132387133386134388135388132389131389131389131388132387134388135388135389132390131390131389131389132389135388135389134389)
 (.leaf 132391131391131390131389132389135389134389133392133393131393131391131390132390134389133392134393132396131397132396131394132394134395133396133396132398131398131397131397132396133396133396133398133401131400131400131398132398133398134400133400132410132409131409131408133407133408133410133410133413131411131411132409132410133410134412134413134414132414131411131411133410134412134413134414133416131415131415132414134414134414135415133416134417131417131415131415134414135415133416134417132422132422133421131421133420133421133421134424132425132425132422133421133421133421134424134425132425131425132425132422132422134424134425133425132427131427132425131425132425133425133425134426132428131427131427132425132425133425134426135427133430133430131427131427132427134426135427133429000000131440131439133438133437000000134438134441134443131442131442131440133440133441134443000000134443131444131442131442133441134443000000134443133448133448133445131445133444135446135446134448134449133448133448133445133445135446134448135449133452133452132451133449134450134450134451133452133453132453133452132451134450134451133452134453133456132456131454131454132454135453134455134456133461132461133460132459000000133458134460133460134467131466131465132463132464134463134464134467134467131467131466131465133464134464134467135467132467131468131467131466134467134467135467135468132469132468131468131467134467135467135468134470132474000000000000133471133471135471135472135475132475000000000000000000133472135472135475135475132476000000000000000000132474135475135475135476)))
 (.node 2 (.node 1 (.leaf 132475135475135476135477000000000000000000000000132476135476135477000000000000132496000000000000000000000000000000000000134498131498132496000000000000000000000000000000134499131499131498132496000000000000000000000000134500131500131499131498134498000000000000000000134500131501131500131499134499000000000000134500134504132503133502133502133501133502134504135504134504133505132503133502133502134504135504134504132510131510132508133507133507133508134508133510133515131514131513131512132512133512135513134513132515131516131514131513132514135513134513134514132521131522132521131519133518133519134519134520132522131522131522132521133519134519134520134521134524131524131523131522132522134521134522134525132525131525131524131523133522134522134525135525132527131526132525131525132525135525135526135527132528131527131526132525133525135526135527135529134529131528131527131526132527135527135529134530134532132532132531131528134529134530135530134532133533132533132532132531133529135530134532135533134533133534132533132532134532134532135533134534134539133540132539133537134537135537135538135539134541133540133540132539134538135538135539135540134542132542132541133541134541000000000000135543134544131544132542132541132542000000135543135543132544131545131544132542134542135543135543133545134551133550132548133548134549133548135549135551134552133552132550133550134551135551135551135552134557133557132557132554133554134554134555135557133560132558133557133557134557135557135558134560134560133560132558133557133557135558134560135561)
 (.leaf 133565133564133564133562134563135562134564135565134569131569133568131567134567135566135568135569134570131571133570131569134569135569135570135570134573132573132572131571134570135570135570135573133574133574132573132572134570135570135573134574133575132575133574132573134573135573134574135574132578132578132577132576134576134576134577134578132578132579132578132577133575134577134578134579133580133580132579132578132578134578134579133579134592131591132591133589133588000000000000000000000000133593131591132591134590000000000000000000000000133593133593131591134592000000000000000000000000000000000000133593000000000000000000000000000000000000000000000000000000000000000000000000134600132600000000000000000000000000000000000000000000132603132600000000000000000000000000000000000000000000132603132600134600000000000000000000000000000000000000000000000000000000000000000000000000000000000000000000000000000000000000000000135153132153134151133150135151136151136152135152135154000000132153134151135152136152135152136154133155000000000000132153135153135152136154136155134157133155000000000000135154136154136155135157134158134157133155000000133155136155135157000000134162133162134161134159000000136160136160136162000000000000000000133164135164135164000000000000000000000000000000000000000000000000000000000000000000000000000000000000000000000000000000000000000000000000000000000000000000000000000000000000000000000000000000000000000000000000000000000000000000000000000000000000000000000000000000000000133197000000000000000000000000000000000000000000))
 (.node 1 (.leaf 133198000000000000000000000000000000000000000000000000000000000000000000133197000000000000136199000000000000000000000000133198000000136199136200000000000000000000000000000000136199136200000000000000000000000000000000000000136200000000000000000000000000000000000000000000000000000000000000000000000000000000000000000000000000000000000000000000000000000000000000000000000000000000000000135331132331133329132328134328136329136330136331000000134334133332134331134331136331135332134334134337132336133334134334000000134334135336134336134340133340133339132337133338135338135339134340133342133341132340132340133340134340134340135341133342133342133341132340134340134340135341135342133344000000133342133341133342135341135342134344134347133347133344000000133344134344135346136346134348134348133347133344133344135346136346136347000000134353134353134351000000134351134351135352135356134356133354134353134353134353135356000000133358132358132358133356135356135356135357135358133360132360132358132358134357135357135358000000135360133360132360132358133358135358000000135360135364133363134362132362134361135361135362135363135364133364133363134362135362135362135363135364135372134371134369134368134368135368135369136371135373134373134373134371135372136371136372136374134377132377133374134374135373136374136374135377135378134378132377133374135375136374135377135378135381134380133380134378135379136379136379136381135382134382133380134380135381136381136382136383135384133383132383134382135382136383136383136385133386133386133383132383134382136383136385135386)
 (.leaf 133386132387133386133383135384136385135386136386134388132387132387133386133386135386136386136387135388132389132387132387133386136386136387136387133392132391132390132389135389136388135389136390134393133393132391132390134389135389136390134393133393133394133393132391133392136390134393134393133396132396132394133394133393134393135395134395133398132398132397132396133396134396134396135399134400133400132398132397133396134396135399134400133400133401133400132398133398135399134400134400133402133403132401133401133400134400135402135403134404133404133403132401133401135402135403134404133404132404133404133403133402135403134404134404133408133407133406133405134405134406134406135407133410132410133407133406134406134406135407135408133410132410132410133407133408135407135408135409134412133410132410132410133410135408135409135412134413133413133410132410133410135409135412134413134417134417133416134414135415135415135416134416133420132420133420133419133419134418134420134420133421133421133420132420133420134420135420135423134424132422133421133420133421135420135423134423135427132428132427132425133425134426134426135427133429133430132428132427134426134426135427135428134431133431133430132428135427135427135428134431000000000000133431133430133429135428134431134432000000133437000000000000000000000000000000000000134441000000133438133437000000000000135438135439133441133440000000133438134438135438135439134441000000134443133441133440133441134441134443134443135446133444134443134443000000134443135445136446135446133445133444134443134443135445136446136446))))
 (.node 4 (.node 2 (.node 1 (.leaf 134448133448133445133444135446136446136446135448135449134449133448133445135446136446135448135449135453132454133453133452133452134451135453136454134456133456133455132454135453136454135455135456133460133461133460000000133458135459135460136461134463133463133462133461133460136461136462136462134467134467133464132464134463135463135464135467135467134467134467133464134464135464135467135468134470132469132467134467135467135468136469136469135470133469132469132467135468136469136469136471135471133471133470133469135470136471136471136471135472133472133471133470135470136471136471136473135475132474133472133471135471136471136473136474135475132475132474133472135472136473136474136476135476132476132475132474135475136474136476136476135477000000132476132475135475136476136476135478000000000000000000132476135476136476135478136479000000000000000000000000135477135478136479000000000000000000000000000000000000136479000000000000133502133501134500134500000000134500134500135503134504133502133501134500134500134500135503135504135504134504133502133501133502135503135504000000133508133507134506134505135505136505136506135507133510132510132509133507133508135507136508135509133511132511132510132509134508136508135509135510133512132512132511132510133510135509135510135511135513132514132512132511133511135510135511135512133517133517133516134516134515135515136518135519133519133518133517133516134516136518135519135520134525134524133522132522134521136523136524136524135527132527133525132525135525136525136526136527135529132528132527133525135526136526136527135527)
 (.leaf 134530134529132528132527135527136527135527136529000000134541134541134539135539136539000000000000135543134544134542132542000000000000000000135543135545134546132544134544135543135543136545134546135551133552134551134549135549135550136550136551135554134554132553134552135552136552136553135553135557134557133555133554134554136554136556136557134560133560133557134557135557136557135557136559135561134560133560133557135558135557136559135561134564134563134563134561134560136562136562135564135566134567133566133565135565136564135566136567135570134569134569134567135568136567136569136570135573134573134570134570135570136570136571135573134574133574134573134570135570136571135573135574133581133582133581133580133579136578136580136581133583133584133583133582133581136581134581136583133585133585133584133583133581134581136583135585134586134586133585133584133583136583135585136584000000133585134586133585133585135585136584000000000000133588133587134587000000000000000000000000000000134590133588133587133588000000000000000000000000000000134592134590000000000000000000000000000000000000000000000000000000000000000000000000000000000000134600000000000000000000000000000000000000000000000000134600000000000000000000000000000000000000000000000000000000000000000000000000000000000000000000000000000000000000000000000000136151135151135149135148136148000000136149136150135157134157133155135154136154137153137154136155000000134158134157133155136155137154136155136158136160000000134159134158000000136158136159137160136162134162134161000000136160137160136161136162))
 (.node 1 (.leaf 136162134163134162134161136160136161136162135163135164135164134163134162136162136162135163135163000000000000000000000000000000000000000000000000000000000000000000000000000000000000000000000000000000000000000000000000000000000000000000000000000000000000000000000000000000000000000000000000000000133197000000000000000000000000000000000000000000133198133197000000000000000000000000000000136199000000133198133197000000000000000000000000136200000000000000133198000000000000000000000000000000000000000000000000136199000000000000000000000000000000000000000000136200000000000000000000000000000000000000000000000000000000000000135203000000000000000000000000000000135203000000000000000000000000000000000000000000000000000000000000000000000000000000000000000000000000000000000000000000000000000000000000000000000000000000000000000000000000000000000000000000000000000000000000000000000000000000000000000000000000000000000000136328134327000000000000000000000000136326136327136329134328134327000000135326136326136327137329136330134329134328134327136328136327137329137330136331135331134329134328136329137329137330137331134334000000134332134331136331136331136332136335135336134334000000134332135332136332136335135335134344133344133342133342135341135341135342137345135346133344133344133342135342135342137345136346136346134347133344133344134344137345136346136347134349134349134348134347136346136347137348137348135350134350134349134348136347137348137348137348134351134351134350134349134349137348137348135350135356134354134353000000135352135353135353137355)
 (.leaf 135356134354134353134353135353137355135356000000133360133358134357135357137358136358135360136371135372134369134368135368137369137370137371136372135373135372134369135369137370137371137372136374135375135373135373136374137372137374137375135378135378134377135375136374137375137375137376136385135384134382135382136383137383137383137385136386133386133386135384136385137385137385136387136387135388134388133386136386136387137388137388136390133392134389135389136388137389137389136390134393134393133392134389135389137389136390135392135395134395133393134393134393135392135392135395134395133396134395133393134393135392135395135395134400134400133398133396134396135397137399135399135403133402133401133400134400135400135402136403134406134405133405133404134404135404136404135407134406134406134405133405134405136404135407135407135412134412133410133410135408136408136411136412134413134413134412133410135409136411136412136413135415135415134414134413134413136413137414135415135416133416135415134414134413137414135415135415135423133421133421133420134420136421136422135422134426133425133425134425134424135424136426135426134432000000134431133429135428135428135429136432000000000000000000000000134432136432135431000000000000000000000000000000000000135431000000000000134441133441134441134438135438137438136439135442134443134443133441134441135439136439135442135442135449135449134448135446136446137447137447137449135453134453133452134451134451137450137452136453136454135453134453133452134451137452136453136454135456134456134455135453136454136454136455136456)))
 (.node 2 (.node 1 (.leaf 135460134460133458134458134457136458136459136460136462134463134462133460136461136461136462136463134463133463134463134462136462136462136463135463135467134467134464134463135463136463136464137466135468135467134467134464135464136464137466137466136471135470134470135468136469136469136470136471136474135475135472135471136471136471136472137474136476135475135475135472136473136472137474137476000000000000000000000000136479136479000000000000134499000000000000000000000000000000000000000000134500000000000000000000000000000000000000136499134500134500000000000000134499000000136499136500135503133502134500000000134500136499136500136503135504134504133502134500134500136500136503137504136506134506135505134504000000000000136505136506136508134508133508134506136506136506136507137508134515134514134513135513135512135513137513136514136518134516134515134514134515136514137516137518135519133517134516134515135515137516137518137518135520133519133517134516136518137518137518137519136523134521134520134519136520137519136520136523136524134522134521134520134520136520136523136524136524134525134522134521136523136523136524136525136525135525134525134522136524136524136525136526136529134530135529135527136527137527136527137529134531135533134532135530135529136531137532137532135534134534135533134532134531137532137532137533136536135536135536134535136534000000000000000000000000000000000000135540000000000000000000000000000000135543000000000000000000000000000000000000136545133545135543135543000000000000136543137545135548134548135545133545136545137545137546136548)
 (.leaf 134548133548134548135545134546137546136548135548136556134555134554135554135553137554137555137556136557135557134555134554136554137555137556137557135561135561134560135558135557136559137559137560136562134560135561134560136559137559137560136562136564135565134564135562136562137562136562137564136569135569135568135566136567135566137568137568135573135573135570135570136570137570137572137572135574134574135573135570136571137572137572135573134577134577134576135574134575136573135574000000136576134578134577134576134575135574000000000000136577134579134578134577134577000000000000000000136578133579134579134578136576000000000000137579136581133581135579133579136578137579137579137581134581133581133581135579136580137579137581000000136583133583133581133581136581137581000000000000135585133585133583133581134581000000000000000000136584134586133585133583136583000000000000000000000000000000000000134586136584000000000000000000000000133588000000000000000000000000000000000000000000000000133588000000000000000000000000000000000000000000000000133588000000000000000000000000000000000000000000000000000000000000000000000000000000000000000000000000000000000000000000000000000000000000000000000000000000000000000000000000000000000000000000000000000000000000000000000000000000000000000000000000000000000000000000000000000000000000000000000000000000000000000000000000000000000000000000000000000000000000000000000000137153136154135152136152137152137151137152138154136158000000135157136155137154137154137155137158136159135159000000135157136155137155137158138158))
 (.node 1 (.leaf 135164136162135163136162136162137165000000000000000000135164135163136162137165000000000000000000000000000000000000000000000000000000000000000000000000000000000000000000000000000000000000000000000000000000000000000000000000000000000000000000000000000000000000000000000000000000000000000000000000000000000000000000000000000000000000136199000000000000000000000000000000000000000000000000000000136200000000000000000000000000135203000000000000000000000000000000000000137202000000000000000000000000000000000000137202138204000000000000000000000000135203137202138204136205000000000000000000000000000000000000000000000000000000000000000000000000000000000000000000000000136335134334135332136331136331138332138333136334135337135338134336135336135335138335138335137336135339135339135338134336137336138335137336137339135339134340135339135338135337137336137339136340135340134340134340135339135339137339136340136340135342135342135341134340136340136341137341137342137345134344135342135341135341137341137342138345136346135346134344135342135342137342138345138346136347136346135346134344137345138345138346138347137348135350134349136347137348137348000000137348135350134351135350134349137348000000137348138351135351134351134351135350137348137348138351138351135352134351134351134351135350138351138351138352135353135352134351134351135351138351138352138353135353134353135352134351135352138352138353138354137355135356134353135352135353138353138354138355135356000000135356134353135353138354138355138356137356135356000000135356137355138355138356138356)
 (.leaf 137358135357135356000000135356138356138356137357135360000000135358135357137358137357137358137359135361135360000000135358136358137358137359000000137361135361135360000000135360137359000000137361135367135366135365135364136364136365137365138366135368135367135366135365135366137365138366138369137369135368135367135366135367138366138369138369137370135369135368135367135368138369138369138369137371136371135369135368137369138369138369138371137374136374136374136372137372138372138373138374137375135377136374136374137374138374137374137375137376135378135377136374137375137374137375138377137378136379135378135377137375137375138377137377137380136379136379135378137376138377137377137380136382136382136381136379137380137380137381137382137385135386136385136383137383138383137385138385137389135389136388136387137388138388138389138389135392134393136390135389137389138389137390137391135392134393134393136390136390137390137391136393135395134395135395134393135392136393136393136395135397134396134396134395135395136395137395137398137399135399134396134396135396137395137398137399135399134400135399134396135397137398137399137400135400134400134400135399137399137399137400138401135402135402134400134400135399137400138401138402136403135403135402134400135400138401138402136403135404134404135403135402135402138402136403136403135407134406134405134404135404137403136404136406136411135409135408135407136407136408136408138410136412135412135409135408136408136408138410138411135415135416135415134413137414137414137415136416136417134416135416135415135415137415136416136416))))))))
 (.node 64 (.node 32 (.node 16 (.node 8 (.node 4 (.node 2 (.node 1 (.leaf 136421134420134420134418135418136418136418137421136422135420134420134420135419136418137421136422136426135426134424134423135423136422136423137426135426134426135426134424135424136423137426136426135428135427134426134426135426136426137426137427135428135428135427134426136426137426137427136429136432134432134431135428135428136429137431136432135431000000134432134431135429137431136432136432000000000000000000000000135431136432137434000000137438135438000000000000000000000000000000138438135442134441135439135438137438138438137439136442135442134443134441135439136439137439136442137443135444135445134443134443135442137443136444137445137447136446136446135445135444137445137446137447137449135449135448136446137447137447138448137449136450135450135449135448137447138448137449137450137450134451135450135449137449137449137450138450136453135453134451134451137450138450137452137453136454136454135453134451137452137452137453137454136459135459134457135457135457137457136458136459137466135467135464135463136463136463137464138466137466135468135467135464136464137464138466137466136469136469135468135467137466138466137466137469136470136469136469135468137466137466137469136470137476136476136476136474137474138475138475138476136479136479135478136476137476138476000000000000000000000000136479135478137478000000000000000000000000134499000000000000000000000000000000000000136503135503134500134500136499000000137500138502137504135504135503134500136500137500138502000000000000000000000000135504137504000000000000000000135510135509136508135507136507137507137508137509)
 (.leaf 135511135510135509136508137508137508137509137510136513135511135510135509135510137509137510137511135513135512135511135510135511137510137511137512137516135515134515135513137513138514138514138516137518136518135515134515136514138514138516137518137518135519136518135515137516138516137518137519137519136520135520135519137518137519138519138519136523136523134520136520137519138519137522136522137529136529135527136527137527138527138528137530137532134531135529136529137529137530138530137532137533135534134531134531137532137532138532000000000000136534135534134531137532138532000000000000000000136536136536136534000000000000000000000000000000000000000000136539000000000000000000000000137545136545135543000000000000000000000000138545136548135548134546136545137545138545138546138548135548134548135548134546137546138546138548137549137550136550135550134548135548137549138549137549137556136556136554135553137554138554138555138557137559136559135557136557137557138557138558137560136562136562135561136559137559137560137561138560137562136562136562135561137560137561138560137561137564136564135564136562137562137561137564137565135566136567135566136564137564137565138565137567137568136567136567135566135565138565137567138567137570136570136569136567137568138567137569138570135573135574135573136571137572138572138573137572135574134575134575135574135573137572000000000000000000134577134575134575136573000000000000000000137579136580136578136577000000000000000000000000000000136583134581136581137581000000000000000000000000000000136584135585000000000000000000000000))
 (.node 1 (.leaf 136150136150136149000000000000000000138149138150137158136158136155137154137154139155139156139157138158136159136158136155137155139156139157138157137161136161137160136159138158138157138158138161000000000000000000135163136162137163138165000000000000000000000000000000000000000000000000137180136183000000000000000000000000137181138181138182136184000000000000000000000000138181138182138185136185000000000000000000136183138182138185138186000000000000000000000000136184138185138186000000000000000000000000000000136185138186000000000000000000000000000000000000000000000000000000000000138204000000135203000000000000000000000000000000136205000000000000135203137202000000000000000000000000000000000000000000138204000000000000138205000000000000000000000000136205000000138205138206000000000000000000000000000000138205138206000000000000000000000000000000000000138206000000000000000000000000000000000000000000000000000000000000000000000000000000000000000000000000000000000000138326000000000000000000000000000000000000000000138327136326000000000000000000000000000000000000138328136327136326000000138326000000000000139328138328137329136327136326138327000000139328139328138333136332136331137331137330139332139332139333)
 (.leaf 136334136335136332136331138332139332139333139333138335135335136335136332138333139333139333000000138335137336135335136335136334139333000000138335137339135339135337137336138335138335138338137339136340135339135339135337137336138338137339137339136341136340135340135339136340137339137341137341138345137345135342135341137341138341138342138345138346136346137345135342137342138342138345138346137348137348136347136346138346138346138347138348000000137348137348136347138347138347138348137348138351135350137348137348000000137348137348139350138351135351135350137348137348137348139350139351138352135352135351135350138351139350139351139352138353135353135352135351138351139351139352139352138354135353135353135352138352139352139352139353138355137355135353135353138353139352139353139356000000135361135360136358137358139358138359137361138366135367135366136364136365137364137365138366138369135368135367135366137365137365138366139369138369137369135368135367138366138366139369139369138374137374137372137372138372139372138372139374137381136381137380137378137377138379138380138381138385137385137385137383138383139383139383139385137388137388136387137385138385139385138385138388138388137388137388136387138386138385138388000000136393135392135392136390137390139391138391139393136393135395135392135392137391138391139393139393136395135395135395135392136393139393139393139395137398135397135396135395136395139395137395139398137399137399135397135396137395137395139398139398136403136403135402135400138401138401139402139402136403135404136403135402138402139402139402139402)))
 (.node 2 (.node 1 (.leaf 136406135407136404135404137403137404138404137406136408136407135407135407136406137406138406139408136408136408136407135407137406138406139408137409138411136412136411136408136408137409139411139411137413136413136412136411138410139411139411138413137414137414136413136412138411139411138413137414136418135418135417136417136416137416137418137418137421136421135419135418136418137418138420138421136422136422136421135419136418138420138421137421136422135423135422136422136422137421137421139422136423135424135423135422137421137421139422139423137426136426135424135423136422139422139423138426136426135426136426135424136423139423138426137426136429135428135428136426137426138426139427139428137431135429135428135428137427139427139428138431136432136432135429135428136429139428138431137431137434000000135431136432136432137431138431138432000000000000000000135431136432138431138432000000136442135442136439137438138438000000139440139440137443135442135442136439137439139440139440137443136444135443135442135442136442139440137443137443137446136446135444135443136444137443137445138446137450136450137449137447138448138448138449139450137453136453137452137450138450139450139451139452136460136461136460136459136459137458139460138461136462136462136461136460136459139460138461137462137463136463136462136461136460138461137462137462138466137466136464136463136463138463138466138467137469136469137466137466138466138467138468137469136470136470136469137466137466138468137469137469138475137474136472136471136471137472138472138475138476137476137476137474138475138475139475000000)
 (.leaf 136479137478137476138476000000000000000000000000136499000000000000000000000000000000000000138502136503136500136499000000000000000000000000000000137504136503136500137500000000000000000000000000000000137504136503138502000000000000000000138514136514137513135513137512138512138513138516138516137516136514137513138514138513138516139517137519137518137518137516138516139517139517138517137522136520137519137519138519139519139519137522136522136523136520137519138519139519137522137522136524136525136524136523136522137522137524137524138526136527136526136525136524137524138526138527138527137527136527136526136525138526138527138528137530137529136527137527138527138528138529139530138532137532137532136531138530138531138532138533000000000000000000137533000000000000000000000000000000136543000000000000000000000000000000000000138545137545136543000000000000000000000000139545137549135548136548137546138546139546138546139548138549136550135548136548138548138546139548139549136552136551136550137550137549139549138552137552138554137554136552136551136552137552138552139554137560137559136559137557138557139557138557138560137565137564136562137562137561139562138562139564138567137568135566135565138565139564138567138568000000136573135573137572138573139573000000000000000000135574136573135573137572000000000000000000000000000000135574136573000000000000000000000000000000000000000000135574000000000000000000000000000000137579000000000000000000000000000000000000000000137581137579137579000000000000000000000000000000000000000000137581000000000000000000000000))
 (.node 1 (.leaf 138153137151136150137149138149138150140151139153137152137152137151136150138150140151139153139154139156137155137154138154138153138153139154139155139157137158137155137154139155139154139155139156138161137161137160138158138157139157139158138161137161137162137161137160138158139158138161138161138165137165136162136162000000138162139162139165000000000000137165136162137163139162139165000000137180000000000000000000000000000000000000138180138185136184136183000000138181139181139184139185138186136185136184136183138182139184139185000000000000138204137202000000000000000000000000000000000000000000000000000000138205138205000000138208000000000000000000000000000000138208140209000000000000000000000000000000000000140209000000000000000000000000000000000000000000000000000000000000000000000000000000000000000000000000000000000000000000138326000000000000000000000000000000000000139332137330137329138328139328140328140329140330139332138332137330137329138329140329140330140332000000138335136334138333139333139332140333139336138338137336138335138335000000139336139337138338137339137339137336138335138335139337138338138338138345138345137342137341138341138341139342138345138346138346138345137342138342139342138345138345139351138351138351137348137348138349139351140352139358137357138356138356139356140356140357139357139358137358137357138356138356140357139357139358)
 (.leaf 137361000000137359137358139358139358139361138361137364136365136363137362138362139362138363138365139369138369138366137365137365140366140367140368139369138369138369138366138366140367140368140369139370138371138369138369139369140369140370140371138380137380137377138377138376138376139379139380139385138385137385138383139383140383140383140385000000138388137388138386138385139387140387139387139391137390138389138389138388140388140389139390139393136393137391137390139391139390139391140393139393136393136393137391138391139391140393140394139395136395136393136393139393140393140394140395137395137395136395136393139393140394140395139395139398137398137395136395139395140395139395140398139398137399137398137395137395139395140398140399139400137400137399137398139398140398140399140400138401138401137400137399139398140399140400140401139402138402138401137400139400140400140401140401137404137403136403136403139402140401139402139403137406136406136404137403137404139403138404140406139408136408137406136406137406140406139408139409137409136408136408137406138406139408139409139410139411138410136408136408139408139409139410139411137414137414137413138411139411140411139413139414137418136417136416136416137415139416139417140417137418136418136417136416137416139417140417140418138420136418136418136417137418140417140418140419138421137421136418136418137418140418140419138420139422136422137421136422137421139420139421139422139423136423136422137421137421139421139422139423138426137426136423136422139422139422139423139426137426136426137426136423139423139423139426138426))))
 (.node 4 (.node 2 (.node 1 (.leaf 139427137427137426136426137426138426139426139427139428136429137427137426138426139426139427140428138431137431136429137427139427139427140428139431137431136432137431136429139428140428139431138431000000000000137434136432138431139431139434000000000000000000000000137434138432139434000000000000139440137439138438000000000000000000000000000000139440136442137439138438000000000000000000140441137443137443136442137439139440000000140441138442137445137445136444137443137443138442139444138444139452137453137452138450139450139451139452139453138454137454137453137452139451139452139453138454137455137455137454137453139452139453138454139455137458136458137457137456137456138455138457138457139460136459136459136458137458138457139459139460138461136460136459136459137458139459139460139461137462136462136460136459139460139460139461139462138466137464136463136463137463138463139465139466138467138466137464136463138463139465139466000000137471136471136471136470137469138469138471138471138475138475137474136471137472140472140473139475139475138475138475137474138472140473139475000000000000000000000000138476000000000000000000000000000000137500000000000000000000000000000000000000000000138502137500000000000000000000000000000000000000000000000000138502000000000000000000000000139509137507137506137505138505139505140508140508137509137508137507137506138506140508140508138510137510137509137508137507139509140508138510139511137512137511137510137509137510139511139512140513139517138516138514138514138513138514140516140516139519138519137519137518139517140518140518140519)
 (.leaf 137522137522138519138519139519140519139519140521137522136522137522138519139519139519140521138523137524136523136522137522137522140521138523139522138527138526136525136524137524138524139526138527139545138545000000000000000000000000000000000000139548137549138548138546139546000000140547139549138552137552137549138549139549140550139549139552137552136552137552137549139549139549139552140552139554138554137552136552137552140552140554140554139560137561137560138558138557140559139560139561139562137561138560137561139560139561140561139561139564137565137564137561139562139561140562140564139564138565137565137564138562140562140564139564138568138567137567138565139564139564139565139568137570137571138570137569139569140569139570140571139573138573138572137571137570140571139572000000000000000000000000137572000000000000000000000000000000000000000000000000000000000000000000000000000000000000000000000000000000000000000000000000000000000000000000000000000000000000000000000000000000000000000000000000000000000000000000000000000000000000000000000000000000000000000000000000000000000000000000000000000000000000000000000000138150138149000000000000000000000000000000140149140151138150138149000000000000000000140149140152139153138153138150138149138150140149140152141152139154137152138153138150140151140152141152141153138161138161138158138157139157141158139158140159138161137161138161138158139158139158140159000000138162000000137161138161138161140159000000140161139165138165137163000000138162140161000000139165000000000000138165137163139162000000139165139166))
 (.node 1 (.leaf 138180137180000000000000000000000000140178140179138181137181137180000000000000140178140179140182139184138182138181137181138181140182140183140184139185138185138182138181139181140183140184000000000000000000000000138186000000000000000000000000000000000000000000000000000000000000000000000000138205138205000000000000000000000000000000000000000000138206138205000000000000000000000000000000138208000000138206138205138205000000000000000000140209000000000000138206000000000000000000000000000000000000000000000000138208000000000000000000000000000000000000000000140209000000000000000000000000000000000000000000000000000000000000000000000000000000000000000000000000000000000000000000140327139328000000000000000000000000000000141327140329138329139328139328140327141327141328141329140330139332138329139328140328141328141329140330140332139332139332138329140329141329140330141331139336000000139333139333139332140332140333140334139337138335000000139333140333140333140334141335138345138345138342138341138341139341139342140345138345138346138345138342139342139342140345139345139348138348138347138346138345139345139347139347139351139350137348137348138348139348140350140351140356139356139353139352140353141353141353140356140356139356139356139353139353141353140356141356139361138359139358139358139357140357140360139361138361137361138359139358139358140360139361141361138363137363138362137362140361140361140362140363138365137364137363138362139362140362140363141366140366137365137364137363138363140363141366141366140367138366137365137364138365141366141366141368)
 (.leaf 140368139369138366137365140366141366141368141369140369139369139369138366140367141368141369141369140372139372139370139369140370141370141371141372138375138375138374139374139373141374141375141375138376138376138375138374140374141375141375141376139379138379138376138375138375141375141376139379139380138380138379138376138376141376139379140380139383138383138382138381138381139380141382141382140385139385139383139383140383141383140385141385140387138388138385139385140385141385140387141387140388138388000000138388140387141387141388140388140389138389138388000000139387141388140388140389140393139393138391139391139390141390141392141393140395139395139393139393140393141393141395141395140398139398137395139395140395141395141395140398140399139398139398137395139395141395140398140399140401138401139400139398140399140399141399140401140401139402139402138401140401140401000000140401138404138404137404139402139402140402140403141405140406137406138404137404139403140403141405141405139408138406137406138404138404141405141405140408139409139408138406137406140406141405140408140409139414137414138413139411140411141411140411139414139417137416137415138415138414140415140416140417140419138420137418137418140417140418140419140420138420138421138420137418140418140419140420140421139426138426139423139422139422140422141424141425138426137426138426139423139423141424141425141426139431138431139428139427139427141428141428141430138431137431138431139428140428141428141430139431000000000000138432138431139431139432140434000000000000139440000000000000000000000000000000000000)))
 (.node 2 (.node 1 (.leaf 138442137443139440139440000000000000000000000000139444137443137443139440140441000000000000141442138444137445137443137443138442000000141442140445138448138448137446138446138445139445140447139447139450139450138449138448138448139447140449140450139451139450139450138449138448140449140450139451138457137458137456137456138455139455140457139458139459137458137458137456138457140457139458140459139465138463137463137462138462139462140464139465139466138466138463137463138463140464139465139466138468137469138468138467000000139466140468140469138471137470137469137469138468140469140470000000138471137471137470137469138469140470000000140472140472137472137471137470138471000000140472140473140473138472137472137471138471140472140473140474139475138475138472137472140472140473140474140475000000139475138475138472140473140474140475000000000000000000000000139475000000000000000000000000000000000000000000000000000000000000000000000000140508138506138505000000000000000000140505140506140508139509138506138505139505140505140506140509138510137509139509138506140508140506140509140510139512137511137510137509138510140510141511140512138514138513138512137512140513141513141514140515140516138516138513138512140514141514140515140516140516139517138516138513138514140515140516140517140518139517139517138516140516140516140517140518140519139519138517139517140518140518140519141519140521137522139519139519140519141519141520141521138523137522137522139519139519141520141521140521138524137524137524137522138523140521141523140525139526138526137524137524139522141523140525139526)
 (.leaf 138527138527138526137524138524140525139526139526138528138529138528138527138527139526141527140529140529139530138529138528138527141527140529141529139531138531139530138529138528140529141529000000139549139548138546139546000000000000000000140547140552137552138552139549139549141550139550141552140554139554138552137552140552141552140552141554139560138560138557139557140556141557140559139560139561139560138560138557140559140559139560139561140564139564138562139562139561140563139564141563139568138568138567139564139564140564141565140568140569139569138568138567139565141565140568141569000000000000000000000000000000139580000000000000000000000000000000000000000000000000000000000000000000000000000000000000000000000000000000000000000000000000000000000000000000000000000000000000000000000000000000000000000000000000000000000000000000000000000000000000000000000000000000000000000000000000000000000000000000000000000000000000140152140151138150000000000000000000000000141150141154138153139154139153141152142151142152142155000000139155139154138153141154142155142155142155000000139156139155139154140154142155142155142157141158139157139156139155000000142155142157142158139158139158139157139156000000142157142158142158000000139162138162138161000000140161140161142163139165139165139162138162140161140161142163000000139166000000139165139162000000142163000000141164140167000000000000139165139165000000141164141167000000000000000000000000139166141164141167000000140182138181138180000000140178141178140181141182000000000000000000000000000000000000000000000000))
 (.node 1 (.leaf 138205000000000000000000000000000000000000000000000000138205000000000000000000000000000000000000138208000000138205000000000000000000000000000000140209138208000000000000000000000000000000000000000000000000000000000000000000000000000000000000000000000000000000000000000000000000141214000000000000000000000000000000000000141214142216000000000000000000000000000000142216140216141217000000000000000000000000000000140216141217141220000000000000000000000000000000141217141220000000000000000000000000000000000000141220000000000000141331140332140330140329141329141329141330141331141335139337139336140333140333141333141334141335139337138338139337139336140334141334141335141336139338138338138338139337141335141335141336140338140345138345139342138341139341140342142343141345139345138345138345139342139342142343141345141346140350138349138348139348139347140347141349140350140351139351138349138348139348141349140350140350140356140356139353140353141353142354142354142354141356140356140356139353141353142354142354142356140360139358139357140357141356142356141357141360139361139361139358139357140357141357141360142360141366138365138363139362140362142363142364142366141366140366138365138363140363142364142366142367141374139373140372140372141372142372142373142374141375138375140374139373141374142374142375142375141376138376138375140374141375142375142375141378139379139379138376138375141375142375141378141379140380139380139379138376141376141378141379141380139380138381139380139379139379141379141380141381141382139383139382138381139380141381142382142382)
 (.leaf 141383140383139383139382141382142382142382142383141385140385140383140383141383142383141385142385141387140387139387140385141385142385141387142388141390139390140389140388140388142388141389141390141392139391139390140389140389141389141390142392141393140393139391139390141390141390142392142393140398140398139395140395141395142395142397142397140399140399140398139395141395142397142397141399141405138404139403139402140402141402142404142404141405140406138404139403140403142404142404141405140409139409139408140406141405141405141406141409139414139414139413140411141411142411142411141412140415138414139414139413140411142411141412141415140416139416138414139414139414141412141415140416141424139423139422139421139422141421141424142424141425139426139423139422140422141424142424142424141426138426139426139423141424142424142424141425141427139426138426139426141425142424141425141426141428139427139426138426141426141425141426141427141430139431140428139427141428141427141428141429139431138431139431140428141428141428141429141430139432139431138431139431141430141429141430141431140434139434139431138431139431141430141431140433141442139444138442140441000000000000000000142442140445138444139444138442000000000000142442140444139447138448138447138445139445140445140447140447140450139450138448138448139447140447141449140450139453139453139452139451139451140450140452140452139454139455138454139453139453140452140454141455140457138457138455139455139454141455141456140456139462139462139461139460139459140459140461140461140464138463138462139462139462140461141463140463)))))
 (.node 8 (.node 4 (.node 2 (.node 1 (.leaf 139466000000139466139465139465140464140466140466140469138468139468000000139466140466141468140469140509140508140508139505140505141505142508141509141513140513139512139511141511140510141512141513141521140521139519140519141519142519142520141520141523139522138523140521141521141520141521141522140525138524139522138523140521141521141522141523139526139526138524139522141523141522141523141524141527138527138527139526139526141524142526142527140529138528138527138527139526142526142527142528141529140529138528138527141527142527142528000000000000139532139531140529141529000000000000000000000000139533139532139531000000000000000000000000000000000000139533139532000000000000000000000000000000140547000000000000000000000000000000000000140550140550139549140547000000000000141547141550141550139549140550139549140547141547141550142550141552140552139552139549141550142550141550142552141554140554140554140552141552142552142553142554140559140559140556139555140555141555142557141557139560139560140559140556141557142557141557140560141565139565139564140564141563142564142565142567140568139568139565139564140564142565142567141568141569140569139568139565141565142567141568141569000000000000000000139572000000000000000000000000139579000000000000000000000000000000141577140580139580000000000000000000000000141577140580141581000000000000000000000000139580141581000000000000000000000000000000000000000000000000000000000000000000000000000000000000000000000000000000000000000000000000000000000000000000000000000000000000000000140149000000000000000000000000000000000000)
 (.leaf 142151141152140152140149000000000000000000000000142155000000140154141154142155143154142156143156142157000000000000140154142155142156143156143157142158141158000000000000142155143156143157143158140160140159139158141158142158143158142158142161140161000000140159139158142158142158142161143161140161140161000000140159140160142161143161143162142163000000140161000000140161143161143162143163000000139165000000140161140161143162143163142163141167140167139166139165000000142163143166142167000000000000140167139166141164143166142167142168000000000000000000000000000000000000000000142177141182140182140179140178141178141179142179141182141183140183140182140179140181142179141182141183000000000000000000000000000000000000000000000000140216000000000000000000141214000000141215143217141220000000000000000000140216143217142217143219000000000000000000000000141217142217143219143220000000000000000000000000000000143220143221000000000000000000000000000000000000143221000000000000000000000000000000000000000000000000000000000000142332140332141331140330141330142330142331142332140339139339139338139337141336141336141337142340140340139340139339139338140338141337142340143340140341139341139340139339140339142340143340143341140342139341139341139340140340143340143341143342142343139342139341139341140341143341143342143343141345140345139342139341140342143342143343141345141346139345140345139342142343143343141345141346141349139348139347139347140346143346142348141349140350140350139348139347140347142348141349142350141352140352140351140350140350142350141351141351))
 (.node 1 (.leaf 142354140356141353141353142354142354143354142354142356141356140356141353142354143354142354143356141360140360140357141356142356142356143357143359142360139361140360140357141357143357143359143360142363140362140361141361142361143361142361142362142364140363140362140361141361142361142362142363142366141366140363140362142363142362142363143366142367141366141366140363142364142363143366143367142368141369141368141366142367143367143367143368141379139379141376141375142375142375143376141378142385141385140385141383142383143383142385143385142388141387140387141385142385143385142387142388142392141392141390140389141389143391143391143392142395141395141395141393142393143393143394143395142397140398141395141395142395143395142397143397141399140399140398141395142397142397143397143398142399141399140399140398142397143397143398143398142401000000140401141399142399143398143399143401142404140403140402140401141401142401143403143403142404141405140403140402141402143403143403142404141409140409140408141405141405142405143407142409141410140410140409140408141406143407142409142410141415140415139414140411142411143412143412142415140416140416140415139414141412143412142415142416141418140418140417140416140416142416142417142418141424140422139422139421141420142420142421143423142424141424140422139422141421142421143423142423140433140434139432139431141430143430143432143433000000000000140434139432141431143432143433142435000000000000000000140434140433143433142435000000140444140445141442000000000000000000142442142443140445139445140445141442142442142442142443141445)
 (.leaf 140450140450140449139447140447141447142449141450140452139453139451139451140450141450142452143452140454140454139453139451140452142452143452141454141455139454140454139453140452143452141454141455141468140468139466139466140466141465141467142468140470000000140470140469140469141468141468142469140471140472000000140470140469141468142469142472140473140473140472000000140470142469142472142473142473140474140473140472140471142472142473000000141475140475140474140473140473142473000000000000000000000000140475140474142473000000000000000000142508140506140505000000000000000000142505142508141509140509140506140505141505142505142508143509140510140510140509140506142508142508143509142510141512140512141511140510140510142510143511141512142517140517140516140515142515142515142516142517142518140518140517140516142516142516142517142518141519140519140518140517142517142517142518142519142519141519140519140518142518142518142519142520142526139526139526140525141523142523142524143527142527141527139526139526141524142524143527143528000000141529140529141527142527143528000000000000000000000000000000141529000000000000000000000000141550140550140547000000000000000000000000142550142550141550140550140547141547000000142550143550142552141552139550141550142550143550142550142553142554141554140552141552142552142553143553143555142557141557140555141555142554143555143556143557140560139560140559141557142557143557142557143559142560139561139560140559141557142557143559143560142561140562139561139560140560143559143560143561141563140563140562139561142560143560143561142561)))
 (.node 2 (.node 1 (.leaf 142563139564140563140562142561143561142561143563142565140564141563139564142563143563143565143565141568140568141565140564142565143565143566143567141569141569140568141565142567143566143567143568000000000000140571140570142570143569142571000000000000000000000000140571142570142571000000000000140580139579000000000000000000000000141577000000141581139580139579000000141577141577000000000000000000000000139580139579140580000000000000000000000000000000000000000000000000000000000000000000000000000000000000000000000000000000000000000000000000000000000000000000000000000000000000000000143154142155142152142151000000000000000000000000142156142155142155142152143153000000000000144155142161140160142158142158143158143157143158144160143161140161140160142158142158143158144160144161143163142163140161140161143161144161144161143162143166141164000000142163143163143162143163144165142167141167141164000000142163143163144165143167142168000000141167141164143166144165143167143168000000000000000000000000000000142168143168000000000000000000000000000000000000143168000000000000141179141178000000000000000000142177143177143178141182141182140181141178141179143178143179143182141183141183141182140181142179143179143182143183000000141184141183141182141182143182143183000000000000000000141184141183141183143183000000000000000000000000000000141184000000000000000000000000000000000000000000000000000000000000000000000000000000000000000000000000000000000000000000000000000000000000000000000000000000000000000000000000000000000000000000000000000000000000000000000000)
 (.leaf 141214000000000000000000000000000000000000141215142216141214000000000000000000000000000000143219141220141217140216143217000000000000000000143220000000141220141217142217000000000000000000143221000000000000141220143219000000000000000000000000000000000000000000143220000000000000000000000000000000000000000000143221000000000000000000000000000000000000000000000000000000000000000000000000000000000000000000000000000000000000000000000000000000000000000000000000000000000000000000000000000000000000000000000000000000000000000000000000000000000000000000000000000000000000000000141336141335141334141333142333144333144335143335141337140338141336141335141336143335142336144338142340140339140338141336141336142336144338144339143340140340140339140338141337144338144339144340143342140342140341140340143340144340144341144342143343142343140342140341143341144341144342144342141346141346141345142343143343144342143345143346143346140346141346141345141345143345143346143347142348140347140346141346141346143346143347142348141349141349140347140346143346143347142348142348141351140350140350141349141349142348143350142350142354142354141353141352141351142351142353144354143356142356142354142354143354144354144354143355143357141357142356142356143356143355143356144358143359141360141357142356142356143356144358144359143360142360141360141357143357144358144359144360143367142367142366142364142363144365144365143367143376141378142375142375142374142375143375143376141378141379141378142375142375143375143376144379142380141380141379141378143376143376144379143380))
 (.node 1 (.leaf 142381141381141380141379141378144379143380144381143385142385141385142383143383144383143385144385142388142388141387142385143385144385144387144388143391141389142388142388143388143389144389143391143391141390141389142388142388144389143391144391143392142392141390141389143391143391144391144392143397142397142397142395143395144395144397144397143398142399141399142397143397144397144397144399143401142401141399142399143398144399143399000000143403141402141401142401143401000000143401000000143403142404141402141401142401143401000000143403143407141406141405142404142404143404143405143406142409141409141406141405142405143405143406144409142410141410141409141406143407143406144409143410143412141412142411142411143411144411143411143412142415141415141412142411143412143411143412142415142416140416141415141412143412143412142415143416143423141424141421141420142420142421143421143422142427141425142424142424142423143423143424142427141427141426141425142424142424143424142427142427141429141429141428141427142427143427143428000000143430141430141429141428142428143428000000144430143432141431141430141429141429000000144430143431143433140433141431141430143430144430143431143432142435000000140433141431143432143431143432143435000000000000000000140433143433143432143435143436141445140445140444142442142442000000142443142445141447140447140447140445141445142445143447142447143452140452140452140450141450142450144451143453141455141455140454140452143452143453143454142455142456141456141455140454141454143454142455142455141458140458141458140456141457142456143458142458)
 (.leaf 141462141463140461140461141460142460142462142462141465140466140464140463141464142463142465143466142468141468140466140466141465143466142467142467142473140473140471140470142469142470142472143473000000000000141475142473000000000000000000000000000000000000000000141475000000000000000000000000142508142508141505000000000000000000143505143508143509141509142508141505142505143505143508144509143511140510140510141509143509144509143510144510143513141513141512140510143511144510144511143513142514141514141513141512141512144511143513143514142515142515141514141513143513143513143514144515141522141521141520142520143521143521144521143521143523141522141521141520141521144521143521144522000000000000000000142528000000000000000000000000000000141547000000000000000000000000000000000000142550141550141547000000000000000000000000143548143550142550141550141547000000000000143548144550142553142552141550142550143550144550144551143553143556141555142554142554143555143553144555143557143557142557141555142554143555144555143557144557143559140560141557142557143557144557144558143558143560142560140560141557142557144558143558144559143563142563141563142561143561144561144563143562143567141568142567142565143565143566143567143568143569142570141569141568143567143568144568143568142571142570142570141569143568144568143568144570141577141577000000000000000000000000000000000000000000140580141577000000000000000000000000000000000000141581140580141577141577000000000000000000000000000000141581140580000000000000000000000000000000143153000000000000000000000000000000000000))))
 (.node 4 (.node 2 (.node 1 (.leaf 144161143161142161142158143158143159143159144160144165143166142163143163143162143163144163144166143167142167143166142163143163144163144166143167000000000000000000000000143168143169143171143171142174000000000000000000000000143172144174143174142177000000000000000000142175143174143175144176143182141182142179141179143178145178144181144182143183141183141182142179143179144181144182143182000000000000000000000000000000000000000000000000000000000000000000000000000000000000000000000000000000000000000000000000000000000000000000000000000000000000000000000000000000000000000000000000000000000000000000000000000000000000000000000000000000000000000000000000000000000000000000000000000000000000000000000000000000000000000000000000000000000000000000000000000000000000000000000000000000000000000000000000000000000000000000000000000000000000000000000000000000000000000000000000000000141215000000000000000000000000000000000000000000143217141215000000000000000000000000000000000000143219142217143217000000000000000000000000000000000000000000143221000000000000000000000000000000000000000000000000000000000000000000000000000000000000000000000000000000000000000000000000000000000000000000000000000000000000000000000000000000000000000000000000000000000000000000000000000000000000000000000000000000000000000000000000000000000000000000000000000000000000000000000000000000000000000000000000000000000000000000000000000000000000000000000000000000000000000000000000000000000000000000000000000000000000000000000000142328142328142327000000000000000000000000145328)
 (.leaf 142329142329142328142327143327000000145328143330144332142332142331142330142330143331145332145332144333142333142332142331143331145332145332144333144335142334142333142332144332145332144333000000142336141336141336142334144335000000144335145337144338141337141336141336143335144335145337145338144339142340141337141336142336145337145338144338144340143340142340141337144338145338144338145340143346141346141345143343144342145343145344143346142350141351142350141349142348143348145348143350142353141352141351141351142350143350143352144353144354143354142354141352142353144353144354000000144359143359143357142356143356145357145359145359144365142363142362142361143361144361144362145364144365143366142363142362143362144362145364145365143367143367143366142363144365145364145365144367142375142374142373143372143372144372144373144374144379141378143376142375143375144375145378144379143380142380141378143376143376145378144379144380144381142381142380141378144379144379144380145380144382143382142382142381144381145380144382145382144385143385142385143383144383145383145383145384144388142388142387143385144385145384144387144388143389143388142388142387144387144387144388144389144391143391143391142388144389144390145390145392144397143397142397143395144395145395145396145397000000143401143399143398144399145398144399144400000000143403142401143401000000144400144401143403143410142410142409143407143406144406144409144410144411143411142410142409144409144409144410144411142415142415143412143412143411144413144414144415143416142416142415143412143412144414144415145416))
 (.node 1 (.leaf 144416142417142416142415142415144415145416145416142418141419142418142417144416145416145417145418142419141419141419142418142418145417145418144420142420141420141419141419142418145418144420144421142421142420141420141419142419144420144421143421142427142427142424142423143423144423144424144425142427141427142427142424143424144424144425143427000000141429142428142427143427144427144428000000143436000000142435143433143432145433143435143435000000142442000000000000000000000000000000000000142443142443142442000000000000000000000000000000142445141445142443142442000000000000000000145444143447141446141445142443142443000000145444144445142447141447141446141445142445145444144445144448143450141450142449141447142447144448144449144450142450141450141450142449142448144449144450144451143453143452142452141450142450144451144452144453142456141457142456141455142455143454144456144457143458141457141457142456142455144456144457143457142462141462141461141460142460143460143462143462143466141465142465141464142463143463144465143465142472142472142469141468142469143469000000000000143473142473142472142469142470000000000000000000000000000000142473142472142472000000000000000000143508142508142505000000000000000000000000144508144509143509142508142505143505000000144508145508143514142514143513141512144511145512145512145514144521141521143521142520142519145520145520144522144522143523141522141521144521144522145523144522142525142524142523143523144522144522145524145525000000143527142524142523144523145524145525000000000000143528143527142524142525145525000000000000)
 (.leaf 144550143550142550000000000000000000000000144551143553142553142550143550144550144551145551145552144553143553142553142550144551145551145552145553144555143555143555143553144553145553145554145555142571000000142571143569143568145569143569144570000000000000000000142571144570143569144570000000000000000000000000000000142571144570000000000000000000141577000000000000000000000000000000000000000000000000141577000000000000000000000000000000000000000000000000141577000000000000000000000000142602000000000000000000000000000000144600144603000000000000000000000000000000144600144603143603000000000000000000000000000000143603000000000000145157142156143155144155000000000000000000000000143158143157142156143155000000000000000000000000143159143158143157142156145157000000000000146159143159144160143158143157143158000000146159146160144166144165143163143162143163144162144163146164143168142168143168143167143167146166144168144169144174000000000000000000143171144171145173144173145178143178143177142177144176144177144177145178144181143179143178143177143178144177145178145179144182143182143179143178145178145178145179145182000000000000000000000000000000000000000000000000000000000000000000000000000000000000000000000000000000000000000000000000000000000000000000000000000000000000000000000000000000000000000000000000000000000000000000000000000000000000000000000000000000000000000000000000000000000000000000000000000000000000000000000000000000000000000000000000000000000000000000000000000000000000000000000000000000000000000000000000000000000000000000000000)))
 (.node 2 (.node 1 (.leaf 145328142328143327000000000000000000145327145328143330142329142328143327000000145327145328145329143331142330142329142328145328145328145329145330145332143331142330142329143330145329145330000000000000144335144333144332145332145332146334146334145337142336143335144335000000146334145337000000145338144338142336143335144335145337000000145337145344143345144342144342145342146342146342146343143346143346143345144342145343146342146343145344143346143347143346143345145344146343145344145345143347142348143347143346143346145344145345145346143348142348142348143347143346145345145346146348145348143350142348142348143347145346146348146349143350142350143350142348143348146348146349146350143352142351142350143350145348146349146350146351144353142353142351142350143350146350146351146352144354144354142353142351143352146351146352146354145357143355144354144354000000146355146356145357145357143356143355144354144354146356145357145358145359144358143356143355145357145357145358146359145364144365143362143361144361145361145362146364145365144365144365143362144362145362146364145364000000144367143367144365145365145364146366146367145368000000000000144367000000146367146367145368145370000000000000000000145368145368145369145370143371143371000000000000144369145369145370144372145378143376143375142375144374145374146376146376144379144379143376143375144375146376146376146378144380143380144379143376145378146376146378145380)
 (.leaf 145384144385143385144383145383146383146384146384144388144388144387144385145384146384145387146388145397144397144397144395145395146396146396145396145398144399144397144397145397145396145397145398143403000000143401000000144400145400145401145402143403143403000000143401144401145401145402144404144409144409143406143405144405146407145408145409144410143410144409143406144406145408145409145410145418142418142418144416145416145417145418145419144420142419142418142418145417145418145419000000144421142420142419142418145418145419000000144421143422143422143421142421143421144421144423144423143427142427142427143424144424144425145427144427000000000000143428143427144427144427144428000000145431143431144430000000000000000000146431146431145433143432143431144430145430146431146431144434143435143435143432143431145431146431144434144434144437000000143436143435143435144434144434145437000000000000000000143436143435144434145437000000000000142443000000000000000000000000000000000000145444142445142443000000000000000000000000146444144448142447143447142445145444146444145445145448144449142448142447143447144445145445145448145449144457142456142455142455143454144454145456144456143460142460142459142458143458144458144460144460143469142469142468142467143467144467000000000000000000142470142469142468143468000000000000000000000000142472142470142469143469000000000000000000000000143473142472142470000000000000000000000000000000000000143473142472000000000000000000000000144508143508143505000000000000000000000000145506145508144509143508143505000000000000145506146509))
 (.node 1 (.leaf 145514143514143513144511145512145512145513146513143514144515143514143513145512145513146513145513144516142515144515143514145514146513145513145514145518143519143518143515143516145517145518146519145520142519143519143518143517145518146519146520145520143521142519143519145518146519146520146520144522144521143521142519145520146520146520146522145525142525144523144522144522146523146524000000000000000000142525144523145524146524000000000000000000000000000000142525145525000000000000000000144551144550143548000000000000000000000000146550145553144553143553144551145551146551146552000000145555144555143553144553145553000000000000146555145557144557143557144555145555146555144555145558143564143562144563144561144560145560146562144563143566143566144565143562143564144563146564144566000000000000142571144570143569145569145570145573000000000000000000142571144570145570145573000000143603000000142602000000144600144601144603144603000000000000000000000000143603144603000000000000146159143159143158145157000000000000000000000000146160143159143159143158000000000000000000000000144162143163143162144160145160000000000000146162144163144163143163143162145161000000146162147164146164144166144163143163144162146162147164147164146166143167144166144163144163147164147164146165144168143167143167144166146164147164146165146168144169143168143167143167146166146165146168147169145170143169143168143167144168146168147169147170144170143171143169143168144169147169147170145170145173143172143171143171144170145170146170145172144175143174143174144174144173145173146173146176)
 (.leaf 144177144176143175143174144175146176147177145177145182144182144181145178145178146178146179145181000000000000000000143182144183145182000000000000000000000000000000000000000000000000000000000000000000000000000000000000000000000000000000000000000000000000000000000000000000000000000000000000000000000000000000000000000000000000000000000000000000000000000000000000000000000000000000000000000000000000000000000000000000000000000000000000000000145332143331143330145329146329146330145332146334144333145332145332000000145332147332147334146334000000144333145332145332147332147334147335145337144335000000144333146334147334147335146337000000145337144335000000146334147335146337147337146341145340144338145338145337146337147340147340146348143348143347143346145345146345147346147348146350143350145348143348146348147348147348146351146351143352143350145348146349147348146351146352146352144353143352143350146350146351146352146353146354144354144353143352146351146352146353146354146355000000144354144353146352146353146354146355146356144354000000144354146354146354146355146356145357145357144354000000146355146355146356145357145358145357145357144354146356146356145357146358146364145364144362144361145361146361146362147364146367000000144367145365145364146366147366147366146367145368000000144367146366147366147366147368144373144373144372143371144372145371145372145374146376144375144374144373144373145374146374146375146376145378144375144374145374146374146375146376146378144379145378144375146376146375146376147378145381145380144380144379146378147378147379146381))))))
 (.node 16 (.node 8 (.node 4 (.node 2 (.node 1 (.leaf 145387144387145384145383146384147384146384146385146388144388144387145384146384146384146385146388145390144390144389144388146388146388147388146390145391145390144390144389146388147388146390146391144404143403143403144401145401145401146402146403144405144404143403143403145402146402146403146406146407144405144404143403144404146403146406146407145408144406144405144404144405146406146407146408145409144409144406144405146407146407146408146409145416145416144415144414144414145413145415145415144423143421143421144421144421145420146420145423144423143422143421143421144421146420145423145423144425144424144423143422144423145423146423146426145427144425144424144423144424146423146426146427144427143427144425144424144425146426146427145427144434145433145431145430146431000000000000145433145437144437143435143435144434145434145434146435000000000000144437143435144434145434146435146438145448144448144445145444146444000000146445147447145449144449144448144445145445146445147447147449145452144452144451144450144450146450145451145451145456144456143454143453144453145453145453145456144456144457144456143454144454145453145456145456144461143462143460143459144460145459145461146462144463143463143462143462144461146462147462146462144464144465143463143462144462147462146462145464144466143466143465144465144464145464000000000000144467143467143466143465144466000000000000000000000000143468143467143466144466000000000000000000000000143469143468143467144467000000000000000000000000000000143469143468000000000000000000000000000000000000000000143469000000000000000000000000)
 (.leaf 146509145508144508000000000000000000146506146509144510145511144510145508146509146509146510147511145512145512145511144510146509146510147511147512145517143516144516143514145513147514147515147517145518143517143516144516145514147515147517146518146520145520145520145518146519146519146520147521146523145523144522145520146520147521147521147523146523144522145523144522146522147521147523147523146550144551000000000000000000000000147549147550146551145551144551000000000000147549147550147550146562145562144560145560146560147561146560147562146564144565143564145562146562147562146564146565144566143566144565143564144563146564146565147565144567143566143566144565146564146565147565147566144568144568143566143566144566147565147566147567146569144569144568143566144567147566147567146569146569145569144569144568144568147567146569147569145573000000144570143569145569147570147570147572000000000000000000144570145570147570147572146574000000000000000000000000000000146574000000000000144601144600000000000000000000000000000000147601144603144603144600000000000000000000147601145603144603143603144603144600144601147601145603145603000000000000000000143603144603145603000000000000000000000000000000000000000000000000000000000000000000000000000000000000000000000000000000000000000000145161145160146160000000000000000000000000147164144163144162145161000000000000000000000000145170144170145170144169147169147169000000000000145172145173144171144170145170000000000000000000145173144173145173144171146170000000000000146174147177145175144175144174146173146174147174147177))
 (.node 1 (.leaf 145177144177144177145175147177147177147178146178145181145182145179145178146178146178146179147182145182144183145182145179146179146179147182000000000000000000144183145182145181147182000000000000000000000000000000144183145182000000000000000000000000000000000000000000000000000000000000000000000000000000000000000000000000000000000000000000000000000000000000000000000000000000000000000000000000000000000000000000000000000000000000000000000000000000000000000000000000000000000000000000000000000000000000000000000000000000000000000000000000000000000000000000000000000000000000000000147328145327000000000000000000000000000000147327147332145332000000145330146330146331147331147332147334146334145332000000145332147331147332147333146337145337146334146334147334147333147334148336147337000000145337146334147335147334148336147336147340145338145337000000147337147336147337147340147340146341145338145337146337147337147340000000147340146341146341145338147340147340000000147340147346145346145345145344146344147344147345148346147348146348145346145345146345147345148346148348146359146359145358145357145357147357147358147359147364146364145362145361146361148362148362148364147366146366145364146364147364148364148365148366147368145368146367146367147366148367148367147368145371144372145370145369146369146369146370146372145374144373145372144372145371146372147372148373147378146378146376146376146375146375148378148378146381145381145380146378147378148378147380148381145381145382145381145380147379147380148381148381147383146383145383145382145381148381148382148384)
 (.leaf 146388146388145387146384146384148384147387147388147388146388146388145387146385147387147388147389146391145391145390146388147388147389146390147391145401145401145400145399146399147399146400147401146406144405144404145402146402147402147403147406146407146407144405144404146403147403147406147407145413144414145413145412145411146411147413146414145415144414144414145413145412147413146414146414145416145417145416144414145415146414148416148417147418145418145417145416145415148416148417147418146419145419145418145417145416148417147418146419146420000000145419145418147418147418146419146419145423144423144421144421145420146420146420147423145423144423144423144421146420146420147423146423146426144425144424144423145423146423147425146426146427145427144425144424146423147425146426146426145429144428144427144427145427146427146429146429145434144434144434146431000000146432147432146434146438000000145437144434145434147434146435147438000000000000000000145437146435146435147438000000147447145448145445146444000000000000147445148447147449145449145448145445146445147445148447147449146450144450145449145448147447148447147449148450145451144451144450145449147449147449148450148450145453144453145452144451145451148450148451148452145453144453144453145452145451148451148452148453145453144454144453144453145453148452148453146455145456145456144454144453145453148453146455146455145457144458144456145456145456146455148457147458145458144458144458144456145456148457147458147459145459144460144458144458145457147458147459148460145461144460144460144458145458147459148460148460)))
 (.node 2 (.node 1 (.leaf 146462144461144460144460145459148460148460147462147462144462144461144460145461148460147462147463145464144464144463144462147462147463147464000000000000144466144464144463146462147464000000000000000000144466144466144464145464000000000000000000000000144467144466144466000000000000000000000000000000000000144467144466000000000000000000000000000000000000000000144467000000000000000000000000000000000000000000000000000000000000000000000000146509146509145506000000000000000000147506147509146510146509146509145506146506147506147509147510145512145513145512144510147511147511147512147513146514146513145513145512147512147512147513147514147517145517145514145513147514147515147516147517146518145518145517145514147515147516147517147518146519146519145518145517147517147517147518146518147523146523146522146520147521147521148521000000147549000000000000000000000000000000000000148549147550146550000000000000000000000000148549148550000000000000000000146552147552000000000000000000147555146555000000000000000000000000000000000000147562146562145560146560147561148560148560148562146565146564144563146562147562148562148563146565147567144568144567144566147565147566147567148568146569146569144568144567147566147567148568147567147569146569146569144568147567148568147567147570147570145570145569146569147569147570148570147570147572145573145570145569147570148570147570147571146574000000145573145570147570147570147571147572000000000000000000145573147572147571147572148573000000000000000000000000000000000000000000000000147601144601000000000000000000000000000000148601)
 (.leaf 145603144603144601000000000000000000148601146602000000000000000000144603145603146603000000000000000000146162000000000000000000000000000000000000000000147164146162000000000000000000000000000000148166146165147164147164000000000000000000000000146167146168146165147164148165000000000000000000147169147169146168146165148166000000000000000000000000147170147169146168146167000000000000000000000000145172146170145170000000000000000000000000146174145173145172146170000000000000000000000000146174146173145173145172000000000000000000147174147178145177147177146176147174147175148175147177147182145181146179146178146178148178148181148182000000145182145181146179146179148181148182000000000000000000000000145182000000000000000000000000000000000000000000000000000000000000000000000000000000000000000000000000000000000000000000000000000000000000000000000000000000000000000000000000000000000000000000000000000000000000000000000000000000000000000000000000000000000000000000148326146331146330146329146328147328148328149329148330147340147340146337147337147336148336149338148338000000147340147340146337147337149338148338147340146343146343146342146341146342147341147342147344148348147348147346146345147345000000148346000000147351146351147348147348148348000000148348148351147352146352146351147348148348148348148351148352147356146356146355146354146353148352148353148356147357145357146356146355146354148353148356148357148362146361146360147360148360149361149361149362148362146362146361146360148360149361149362149362148364147364146362146361148362149362149362148365))
 (.node 1 (.leaf 148366147366146366147364148364148365149366149366148367147368147366147366148366149366149366148367146369146369147368147368148367148367149368148369146370146370146369147368147368149368148369148370146372145371146370146369146369148369148370149372148373145374145372145371146372149372148372149374146375146375146374145374148373149374149375149376148378146376146375146374147374149375149376149376148378147378146376146375146375149376149376148379148382147382145381146381148381148381148382149383147387146385146384147384148384149384149384149386147388146388146385146384148384149384149386147388147392146392146391146390146390147389148391147392146395146395146394146393146393147392148392148395146395146396146395146394146393148392148395147395146400145400146399146398147398148398148399148400147406146406146403146402147402148402147403148406147407146407146406146403147403147403148406148407146410146410146409146408146408148408147409147409146414145413145412145411146411147411147413147413148417145416145415145415146414147414148416148417147418147418145416145415148416148416148417147417146420146420145420146420146419147419148419149420147423145423146420145420146420148419149420148423146423145423145423146420146420149420148423147423146426146426146423145423146423147423148425147425146427145427146427146426146426147425149425147427146434145434145433000000146432147432148432147434146435146435145434145434146434147434148434148435147438146438146435145434147434148434148435148438000000000000146438146435146435148435148438000000148447147447146445000000000000000000148445148446)
 (.leaf 148451145451145451146450148450148450148451148452148452145453145451145451148450148451148452148453148453145453145453145451148451148452148453148454146455145453145453145453148452148453148454148455146455145456145453145453148453148454148455148456148457145456145456145453146455148455148456148457147458145457145456145456146455148456148457147458147459145458145457145456148457148457147458147458147462146462145461145459148460148460148461149462147463147462146462145461148460148461149462149463000000000000000000145464000000000000000000000000147509146509146506000000000000000000000000147509147510146510146509146506147506000000147509148510148521147521147521146520148520148520000000000000000000147523147523147521148521000000000000000000000000000000000000147523000000000000000000000000148549147549000000000000000000000000000000000000000000147552147550147550148550000000000000000000146557145556146555147555000000000000147555149557147559147559145556146555146556147555149557148559148560147560147559145556146557149557148559149560146565146565146564147562148562149562148564147565147566147565146565146564148563148564147565149565147570147569146569147567148568149567149569149570148573000000146574147572147571149571149573148573146575000000000000146574147572149573148573148576000000000000000000000000148573148573148576000000000000000000000000000000146575148576000000000000000000000000000000000000000000000000000000147600146603145603145603147601148601148600149601000000000000000000145603145603146602149601000000000000000000000000000000145603146603000000000000000000))))
 (.node 4 (.node 2 (.node 1 (.leaf 148165000000000000000000000000000000000000000000147169146167148166000000000000000000000000000000000000147169146167000000000000000000000000000000146174000000000000000000000000000000000000147174146174146174000000000000000000000000000000147175147174146174146174000000000000000000150175147177147178147177147174147175150175148175149178147179146178147178147177148175148175149178148178148181146179146178146178147179148178149180149181148182147182146179146178148178149180149181148182000000000000000000000000000000148184149186149187000000000000000000000000000000149186149187148188000000000000000000000000000000149187148188148189000000000000000000000000000000000000000000000000000000000000000000000000000000000000000000000000147328147327000000000000000000000000149326149327147332147332147331146331148330149330149331149332149336148336147334147333148333148334149334150336149338147337147336148336149336150336150337150337147341147340000000147340148338149338148339148341147345147344146343146342147342148343149345000000000000147345147344146343147344149345000000149345000000148348148346147345000000149345148346149349148351147351148348148348000000149349000000149351148352147352147351148348148348000000149351148351148356147356146354146353148352148352148353148356148357147357147356146354148353148353148356148357149360147360147359147358147357150358150359150360149361148360147360147359149359150359150360149361149362148362148360148360149361149361150361150362148365148364148362148362149362150362150363150364149368147368148367148367149366149366150367150368)
 (.leaf 149372146372146370146369148369150370150370149371149375147374148373147372148372150373149373150375149376146375147374148373149374149373150375150375149376148378146375147374149375150375150375149376148379148378148378146375149376150375149376149379149384148384148384148382149383149383149384150384149386147387148384148384149384150384149384150386147388147388147387148384149384149384150386150387147389147389147388147387149386150386150387148388148391147391146390147389147389148388149390148390148395146395146393146393147392148392148392149395147395146395146395146393148392148392149395148396147397147397147396146396147397148396148396149397147403147403147402147401148401149401149402149405148406147406147403147402148402149402149405148405147411146411146410146410147409148409149411149412147413147413146411146410147410149411149412148412147414146414146414147413147413148412150413148414148417148417148416146414147414148414148416149417147419146419146419147418147417148417149417148419149420146420146420146419147419148419148419150421148423147423146420146420148419148419150421149423147423146423147423146420149420150421149423148423147427146427146426146426147425148425149425149426147428146429146427146426149425149425149426149427147429146429146429146427147427149426149427149428147430146430146429146429147428149427149428148430147434146434147432146432147432148432149432149433148438147438146435147434148434148435148435149436000000000000147438146435148435148435149436149439000000000000000000000000000000149439000000000000000000000000000000000000000000000000000000000000))
 (.node 1 (.leaf 148450148450147449148447148446149446150447149450148451148450148450147449147448150447149450148451148464147464147463147462149462000000000000000000000000000000147464147463149463000000000000000000147509147509147506000000000000000000000000149507148510147510147509147506000000000000149507150508148511147511147510147509147509149507150508148510148514147514147513147512147512149512148513148513147519146518147518147517147516150517150517149519148520148520146518147518149516150517149519149520000000147521148520146518147519149519149520000000000000000000000000148521000000000000000000000000000000148549000000000000000000000000000000000000000000000000000000148550000000000000000000000000147555146556000000000000000000000000000000148556148559147559146557146556147555148556150558150558149560148560147559146557149557150558150558150560149562148562148560148560149560150560150560150562148567147567147566146565147565149565149566149567149567148568147567147566149565149566149567149568148571148570147570147567149569149569149570149571149573147572147571147570149571150571149571150573148576146575148573147572149573150573150574148575147600000000000000000000000000000000000000149599000000146603146602148601148600150601000000000000000000000000146603146602149601000000000000000000000000147174000000000000000000000000000000000000150175147175147174000000000000000000000000000000148175148175147175147174000000000000000000151176149178147177148175147175150175000000151176151177148178147179147177148175148175151176151177150179)
 (.leaf 149181148181148178147179148178150179150180150181148184000000000000000000148183150183149184149184149187000000000000000000148184149184149184150187148190000000000000000000148188150188151188149190148191000000000000000000148189151188149190150191000000000000000000000000148191150191150192150193000000000000000000000000000000150192150193000000000000000000000000000000000000150193000000000000000000000000000000000000000000000000000000000000000000000000000000000000000000000000000000000000000000000000000000000000000000000000000000000000000000000000000000000000000000000000000000000000148329148328147328148326149326151327150327151329148334148333147332148331149331150331149332150333150336149336148334148333148334150333149334150335150337149338148336149336150336150335150336150337148339147340148338149338150337150337149338150339148341147341147340148338149338149338150339151342148342147341147341147340148339150339151342151342148343147342147341147341148341151342151342150342149345147344147342147341148342151342150342150343000000147345147344147342148343150342150343000000148346148346000000147345000000000000150345150348149349000000148346000000149345150345150348150349000000148348000000148346148346150348150349149349148351148352148351148348000000149349150351149351148352148352147352148352148351149351149351151352148356148356148353148352148352151352149353150356148357148357148356148353148353149353150356150357150358147357148357148356148356150356150357150358150359149359147357148357148357150357150358150359150360149360149359147357150358150358150359150360)))
 (.node 2 (.node 1 (.leaf 150364148365149362149362150362151362151364151364149366149366148365149362150363151364151364151365150366149366149366148365150364151364151365151366150367148367149366149366150366151366150366151367150370148369149368148367150367151367150368151369150370148370148369149368150368150368151369150370149379148379149376149376150375150375150376151377148380148380148379149376149376150376151377150378148382148382148381148380148380150378150381150382149384149383149383148382148382150382151383151384150386149386149384149384150384150385151385151386148388147389147388149386150386151386151387151387149390147389147389147388150387151387151387151388148390148391147389147389148388151387151388149390148392147392147392148391148390149390150392151392148392148392147392147392148392150392151392150394149395148395148392147392148392151392150394149395148396147395148395148392148392150394149395149395148396147397147397147395148396149395149395150396149405147403148402148401149401150401150402149405148405148406147403148402149402150402149405151405148409147409148408148407149405150405150406149409148409147409147409148408149406150406149409149409149412147411147410147409148409149409149411149411148414147414147413147413148412151412151414151414148416148416147414147413150413151414151414150416149417148417148416147414148414151414150416150417148417147417148417148416148416150416150417149417148419147419147419147417148417149417150419150420148419148419147419147419149417150419150420149420149423148423149420148419148419149420150422150423148423147423148423149420150421150422150423150424)
 (.leaf 148430147430147429147428149427150427150428150431148431147431147430147429149428150428150431149431148435148435148434147434149433149434150434150435149439000000148438148435148435150435150436151437000000000000000000148438149436150436151437151440000000000000000000000000000000151440151440000000000000000000000000000000000000000000000000000000150447147448148446148445149445000000150446151447149450148450147448148446149446150446151447149450148451148451148450147448150447151447149450149450149453148453148452148451148451149450149452149453148456148456148455148454148454149453151454150456148456148457148456148455148454151454150456151457148457147458148457148456148456150456151457150458148458147458147458148457148456151457150458000000148459148460147458147458148457150458000000000000150460148461148460147458148458000000000000000000000000149462148461148460148459000000000000000000000000149463149462148461150460000000000000000000150508148510147509000000000000000000000000150508148510148511148510147509149507000000150508150511149512147512148511148510150508150508150511149511148514148515148514148513148513149512149514150515150517147516148516148515148514150515150516150517149519147519149516147516150517150517151518150519149520148520147519149516150517151518150519150520148556147555000000000000000000000000000000151556150558149557147555000000000000000000151556151557150560149560148559149557150558151557151558150560150560149560149560148559150558151558150560151560150562149562148560149560150560151560151561150561149565147565148564149562150562150561150564149564))
 (.node 1 (.leaf 150573149573149571149571150571151571151572151572148575148576148573149573150573151572150573151575148576000000148576148573150574150573151575151575000000000000000000148576148575151575151575149577150601148600147600000000000000000000000000000000000000000000149601148600150601000000150601000000000000000000000000000000000000000000000000000000000000150175000000000000000000000000000000000000151177149178148175150175000000000000000000152177150179148178149178148175151176000000152177152178150180149180148178149178151177152177152178152179149184148184148183148182149182151182152182152182150187149187149186148184149184150184152186150187150188148188149187149186149184152186150187151188000000000000000000000000000000000000000000000000000000000000000000000000000000000000000000000000000000000000000000000000000000000000000000000000000000000000000000000000000000000000000000000000000000000000000000000000000000000000000000000000000000000000000000000000000000000000000000000000000000000000000000000000000000000000000000000000151326000000000000000000000000000000000000000000151327149326000000000000000000000000000000152326151329148329149327149326151327152326151327151328149330149329148329149327150327151327151328151329149330149330149329148329151329151328151329151330149332149332149331149330149330151330152331152332149334149334148334149332149332152332152333150335151342148341148339149338149338152339152340152341151342148342148341148339150339152340152341152341000000000000149345148343150342152342150343151346151352148352148351148351149351150350150351152353)
 (.leaf 149353148353148352148351149351150351152353151353150356148356148353148352151352152353151353150356150357148357148356148353149353151353150356151357151366150366149366150364151364152364152365152366151369150370150368150367151367152368152368151369151372149371150370150370151369151369152371152371151372150373149371150370150370152371152371152372151377149379149376150375150375152375151376152379150381149381148380149379151377152379152380152381150382148382149381148380150378152380152381152382150385150384149384149383151383152383151384151385151388149390148388150387151387152387152387151388149390148390149390148388151387152387151388151391150392148392148390149390151388151388151391151392151392148392148392148390149390151391151392151393149395149395148392148392151392151393150394150394149405149405149402149401150401152401152402151405151405148405149405149402150402152402151405152405149409148409149406149405150405151405151406151407149409148409148409149406150406151406151407152409149411149411148409148409149409151407152409150410151412148412149412149411149411150410152412152413151414150413148412149412149411152412152413152413150416148416148414150413151414152413152414151414150417149417148416148414151414152414151414150416150420148419149417148417149417150417151419150420149426149425148425148424149424150424151424150426150431148430149428149427150427151427151428151429149431148431148430149428150428151428151429150431149434149433149432148432149431151431151432151433151437149439149436148435150435150436150436151437151440000000149439149436150436150436151437151440)))))
 (.node 8 (.node 4 (.node 2 (.node 1 (.leaf 151440000000000000149439151437151437151440000000000000000000000000000000151440151440000000151440000000000000000000000000151440000000151440150442000000149445000000000000000000000000000000000000149450149450150447149446150446151446151447152450149450148451149450150447151447151447152450152450149452148452148451149450149450152450152450150451149453148454149453148452149452150451150453152453150456148456148454148454149453152453151455152455151457148456148456148454151454151455152455000000000000148458148457148456151457000000000000000000000000150460148459148458000000000000000000000000150511148510150508149507000000000000151508150511149511149512148510150508150508151508150511150511149514148513148513149512149511150511150513150513150520149520149519150517151518151518151519151520151556148556000000000000000000000000000000000000151557150558148556000000000000000000000000151558151558150558150558148556151556000000151558152559151560150560150560150558151558152559152560151561149564149565149564150562150561151561151562150564149567149568149567149566149565150565152566152566149568149569149568149567149566152566152566151567149569149570149569149568149567152566151567152569149570149571149570149569149568151567152569151571151571150571149571149570149569152569151571152571151572150573149571150571151571152571152572152573151575148576148575150574150573152574152574151575149577000000148576148575151575152574151575152578000000000000000000148576151575151575152578000000000000000000000000000000149577152578000000000000000000150601149599000000000000000000000000000000)
 (.leaf 150601000000000000150601000000000000000000000000000000150601150601000000000000000000151176000000000000000000000000000000000000152179150180150179151177152177000000000000000000151181150181150180150179152178000000000000000000151182149182150181150180152179000000000000153181150184149184149184150183152182153182152182153184152186149184149184149184152182152182153184153184150187150187149184149184150184153184153184153185151188150188150187149184152186153184153185152188150189151188150188150187150187153185152188151189151192150192150191149190150190151189152191153192152193150193150192150191150191152191153192152193000000000000000000150193152193152193000000000000000000000000000000000000000000000000000000000000000000000000000000000000000000000000000000000000000000000000000000000000000000000000000000000000000000000000000000000000000000000000000000000000000000151326000000000000000000000000000000000000152331150331149330149330151329152329153330152331152332149332150331149330151330153330152331153333152333150333149332150331152331152331153333152333150335149334150333149332152332153333152333151335150337150336150335149334150335151335152335151337152339149338150337150336150337151337152337152338152340150339149338150337150338152337152338152339152341151342150339149338152339152338152339152340152341151342151342150339152340152339152340151342150343150343150342151342152341151342152342152345151346000000150343150342152342152342152345151345150348150349150348150345150346151346152348152349151350149349150349150348150347152348152349151349))
 (.node 1 (.leaf 150356150356149353151352152353153353152353153355151357150357150356149353151353152353153355153357150357150358150357150356150356153355153357153357151360150360150359150358150357153357152359153359150360150361150360150359152358152359153359153361152363151362151362150361150360153361152362152363152364151364151364151362152363152363153364153364152368150368151367150366152366153367153368152368152371150370151369150368152368152368153370153371152371151372150370151369151369153370153371152371152374150374150373151372152372152372152373152374152375150375150374150373151373152373152374152375152380150378151377150376151376153377153378152380152381150381150378151377152379153378152380152381152382150382150381150378152380152380152381152382152383151383150382150381152381152381152382152383151384151384151383150382152382152382152383152384151391149390151388151387152387152387153389153389151392150392149390151388151388153389153389152392150394149395149395150394150394151393151393152394150395149395149395149395150394151393152394152395152401150401150400150399151399152399152400153401152402150402150401150400151400152400153401152402151405149405150402150401152401153401152402153404152405151405149405150402152402152402153404153404152409149409149409150406151406153406152407152410150410149411149409149409151407152407152410153411152412149411149411149409152409152410153411153411152413151412149411149411150410153411153411153412152414151414151414151412152413153412153413153414150416150417150416151414152414153414152416151416151423150423150422149420150420151420152422152423)
 (.leaf 150426149426149425149424150424151424152424151426150431149431150431150428151428152428152429151431150436150436150435150434151434151435152435152436151440151440151437150436150436152436152437152438000000151440151440151437151437152437152438151440150442000000000000151440000000151440151440152441000000000000000000000000151440151440152441151443000000000000000000000000000000000000000000000000152450149450151447150446151446152446153449153449152450149450149450151447151447153449153449153450150451149452149450149450152450153449153450153450150453149453149452149450152450153450153450152453152453149453149453149452150451153450152453153453151455151454149453149453150453152453153453000000000000150458151457150456152455000000000000000000150511150511150508000000000000000000000000151511150511149511150511150508151508000000151511151511150513149514149512149511150511151511152513151513151519150519151518150517150517151516151518152519151561151560150560151558152559152559153560153561150564149564150564150561151561000000152562152563150565149565149564150564151562152562152563153566152566149566149565149564150564152563153566153566152566149567149566149565150565153566153566152566152569149569149568149567152566152566152569152570151571149570149569149568151567152569152570153570152571151571149570149569152569152570153570153571152574150573151572151572152572153571152572152573152574151575150573151572152573152572152573153574152578149577151575151575152574153574153577153577000000000000149577151575151575153577153577000000000000000000000000149577152578153577000000000000)))
 (.node 2 (.node 1 (.leaf 150601150601000000000000000000000000000000000000000000000000150601000000000000000000000000000000000000000000000000150601150601000000000000000000000000000000000000000000000000000000000000000000000000000000000000000000000000000000000000000000153181151182151181152179000000000000000000000000153182152182151182151181000000000000000000000000153184150184152182152182153182000000000000000000153184152186150184152182152182000000000000000000153185150187152186150184153184000000000000153185151189150189151188150187153185153185152188153189152191150191150190150189151189153189153190153191153192151192150191150190151189153190153191154192000000000000152193151192153192154192000000000000153328151327152326000000000000000000153326153327153328151328151327152326153327153326153327154328151335150335152333152332153333153332153333153334151337150337151335150335151335153334152335153336152345150343152342152341151342152342152342153345151345151346150343152342152342152342153345153346152348150347150346151346151345153346153347152347153353152353150351150350152350153350153353154353153355150356151353152353153353154353154354153356153357151357150356151353152353154354153356153357153357150357151357150356153355153356153357154357152359152358150357151357153357153357154357153359152362151362150360151360153359153360153361153362152363152363151362150360153361153361153362152362153368152368152366152366152365154365154367154367153370151369152368152368153368154367154369153369153371152371151369152368152368154369153369153370)
 (.leaf 153377151376152375152374152374152375152375153378153378152379151376152375152375152375153378154379152380152380152379151376153377153378154379154380153389151388152387152387153387153388153389000000153389151391151388152387152387153389000000153389152392151392151391151388153389000000153389152392151393151393151392151391153389153389152392152392151396150397150395150394152394154394154395153396153404151405152402152401153401154402154402154404153404152405151405152402152402154402154404154405153406151406151405152405153404154405153405154406152410152409151407151406153406154406153407153410153412152413152412150410153411153411154411154412151416150416151414152414153414000000154415154416151418151419150417150416151416154416154416154418151419150420151419150417151417154416154418154420151420150420150420151419151418154418154420154421152422151422150420150420151419154420154421154422152423151423151422150420151420154421154422154423151427150426150426151424152424152425153425152427151431150431151429151428152428152428153429153430151431151431150431151429152429153429153430152432151435151434151433151432152432152433153433153434151440000000151440151437152437153437153440152440151443000000150442151440151440152441152441153442000000000000000000150442152441152441153442153445000000000000000000000000151443153442153445000000000000000000000000000000000000153445000000000000153449151447151446000000000000000000153446154448153449152450151447151446152446153446154448154450153450152450152450151447153449154448154450000000152453150453150451152450153450000000000000000000))
 (.node 1 (.leaf 153453152453150453150451153450000000000000000000000000152455151455152453153453000000000000000000151511150511151508000000000000000000000000152511151511150511150511151508000000000000152511152512151515150516150514150513151513154513153513154515151516150517150516150514151514153513154515154516151518151518150517150516151515154515154516154517152519151519151518150517151516154516154517154518152520151520151519151518151518154517154518153520153557151558000000000000000000000000000000154558152559152559151558000000000000000000154558152558153566152566150565150564152563152564153566153567152569151567152566152566153566153567154567154568152570152569151567152566152566154567154568154568153577151575152574152574152573153573153574153575153577152578151575152574153574153574153575153578000000000000152578151575153577153575153578000000000000000000000000000000000000000000000000000000000000150601000000000000000000000000000000000000000000000000150601000000000000000000000000000000000000000000000000150601000000000000000000000000000000000000000000000000000000000000000000000000000000000000000000000000000000000000000000000000000000000000000000000000000000000000000000000000000000000000000000000000000000000000000000000000000000000000000000000000000000000000000000000000000000000000000000000000000000000000000000000000000000153184152182153182000000000000000000000000152188152188153185153184000000000000154185155187153189151189152188153185153185154185155187154189153190151189151189152188152188155187154189153190000000000000000000000000000000000000000000000000)
 (.leaf 152330152329153328153328153327154327154328154329152335152335151335152333153333153334154334154335153345152345152342151342152342153342154344153345153346151345152345152342152342154344153345153345153353152351152350151351152350153350154352154353154353153353152351152350153350154352154353155354153356153355152353153353154353155354155354155354153360153359152359153357154357155357154359154360154367153367152365153365154365155365155367155367152373152373152372152371152372153372153372153374152375152375152374152373152373153374154374154377153378153377152375152374152375154374154377154378153381152381152380153378154379154379154380154381152382152382152381152380154380154380154381154382152384152384152383152382152382154382154383154384153385152385152384152383152383154383154384153384153388153387152387152386152386154386154387153387152392152392153389153389000000153389153389153391154394151393151393151393152392153392000000154393154394152394151393151393152393000000154393154394154395152395152394151393154394154393154394154395154402152402153401152400153400154400154401154402154404153404152402153401154402154401154402155404153410152410152407153406154406154406155408155410153411153411152410152407153407155408155410154411154416151416152416153414000000155414155415155416154416151417151416152416154415155415155416154418154418151418151417151416154416155416154418155418154420151419151418151417154416154418155418154420))))
 (.node 4 (.node 2 (.node 1 (.leaf 154421151420151419151418154418155418154420154421154422152422151420151419154420154420154421154422154423152423152422151420154421154421154422154423153424152424152423152422154422154422154423153424152424151424152424152423154423154423153424154425152427151427151426152424152425153425153425153427152432151431151431152429153429153429154430153432153437152435151435152433153433154433154436154437152437152436152435151435153434154436154437153437153440152438152437152436152437153437153437154440152440151440152438152437153437153437154440153440153445000000151443152441152441153442153442154445000000000000000000151443153442153442154445000000154448153449152446000000000000000000000000000000154450153449153449152446153446000000000000000000000000152453153450153450000000000000000000000000000000153453152453153450000000000000000000000000152511151511000000000000000000000000000000154509152512151511151511000000000000000000154509154512152512152513151511151511152511154509154512155512154513151513152513151511152512154512155512155514154515151515151514151513154513155514155515155516154516151516151515151514153513155515155516154517154517151518151516151515154515155516154517154518154518152519151518151516154516154517154518154519153520152520152519151518154517154518154519154520000000000000152520152519154518154519154520000000000000000000000000000000000000000000000000000000154558153557000000000000000000000000000000000000000000153560152559153557154558000000155558000000000000153561153560152559152558155558000000000000154563152562000000153561000000000000000000000000)
 (.leaf 152564152563152562000000154562000000000000155564153566153566152563152562154563000000155564154566153567153566153566152563152564155564154566153566154568152570152569152566154567154568155569154568154570153570152570152569154568155569154568154569152572152572153571153571154571155571154571154572153578153577153577153574153574153574154575153577000000000000000000000000000000000000000000000000000000000000000000000000000000000000000000000000000000000000000000000000000000000000000000000000000000000000000000000000000000000000000000000000000000000000000000000000000000000000000000000000000000000000000000000000000000000000000000000000000000000000000000000000000000000000000000000000000000000000000000000000000000000000000000000000000000000000000000000000000000000000000000000000000000000000000000000000000000000000000000000000155187152188153185000000000000000000000000156188154189153189152188153185154185000000156188156188153190153190153189152188155187156188156188156189154192154192153191153190153190156189155191155192000000000000000000000000000000000000000000000000155330153330152330154328154328155328156329155330153332153332153331153330155330155330156331155332153337153336152335153334154334154335155337154337153342152342152340152339153340154339154340154342153345153345152342152342153342154342154344155345154347153347153346153345153345155345154346154346153348153350153349152347153348154347155347154349154352153350152350153350153348154349156349154352154353153353153350152350153350156349154352154352155357153357153356154354155354156354156354156356))
 (.node 1 (.leaf 155357154357153357153356155354156354156356156358154360153360153359154357155357156358155357154359153363152362153362153361153361155361154362155363154365154364154364152362153363155363154364155365155367154367154365154365155365155366156366156367153370153370153369154369154368155368155369155370154377152375152375152373153374154373155374154377154378153378152375152375154374155374154377155378153391152392153389000000153389154389155389154391153400153399153398154398154397154397156399156399155404154404154402154402154401156401156402155403155408153407154406153405154405155405156408156408155410153410153407154406154406156408156408156410154411153411153410153407155408156408156410156411155411154411153411153410155410156410156411000000155415154415000000154413000000156413156414156415155418154418154416154416155416156416156417155417154421154421154420154418155418155417154420154420153425152425152424153424153424154423155425154425153427152427153425152425153425154425155425155426153427152427152427153425153425155425155426154428154436153434153433152433154432155432155435156435154437153437153434153433154433155435156435154436153440152440153440153437153437154438154440154440153442153442152441152441153441154441000000155442154445153445153442152441153442000000155442156444000000000000153445153442153442155442156444154445000000153446000000000000000000154445000000000000000000154448153446000000000000000000000000000000000000000000154450154448000000000000000000000000000000000000000000000000000000000000000000000000000000000000000000000000000000000000000000000000)
 (.leaf 154512152512152511000000000000000000000000155512155512152512152512152511154509000000155512155513155516154515153513154513155514155514155515156515000000000000000000000000000000000000000000000000155558152558154558000000000000000000000000155557000000000000000000152558155558155557000000000000000000154562000000000000000000000000000000000000154566153566152564154563000000000000000000000000153566153567153566152564155564000000000000155567153574153573152572153571154571155571155572156573153574153574153573152572154572155572156573154575153577153578153575153574153574154575155575155578000000000000153578153575154575155575155578000000000000000000000000153578153577155578000000000000000000000000000000000000000000000000000000000000000000000000000000000000000000000000000000000000000000000000000000000000000000000000000000000000000000000000000000000000000000000000000000000000000000000000000000000000000000000000000000000000000000154185000000000000000000000000000000000000156188155187154185000000000000000000000000000000156189153190154189155187156188000000157189157189155191154191153190154189156188157189157189157189155192154192154191153190156189157189157189156192000000000000000000000000000000000000000000000000000000000000000000000000000000000000000000000000000000000000000000000000000000000000000000000000000000000000000000000000000000000000000000000000000000000000000000000000000000000000000000000000000000000000000000000000000000000000000000000000000000000000000000000000000000000000000000000000)))
 (.node 2 (.node 1 (.leaf 156329154329154328154327155327000000156328156329156331154331155330154329156329156329156330155332154335154334153334153332155332155333156333156334154337153337154335154334154335156334155335155337154339153339153338153337154337155337155339157340154340153341153340153339154339157340155341155341154344154344153342153341154340155341155343155343156349153350153348153348155347155348156348156349154352154352153350153348154349156348156349155352154352154353154352153350156349156349155352156353156354155354155354154353154352156353157354157354156356155357155354155354156354157354157355156357156358155357155357155354156354157355156357157358154359154360154359155357156358157358157359157359155361153361154360154359155357157359157359157360154362154362153361154360154359157359157360157362154364154364153363154362154362157362157363157363154377154377154374153374154373155373156376156377155378154378154377154374155374156376156377155378155379154379154378154377154377156377155378156379154385153384154384154383154383155382157383156385154387154387154386153384154385156385156386155386154388153389153387154387154387155386155388155388154391153391153389153389154389155389155389155391154396153397154395154394155394155395155395157398154397154397153397154395155395155395157398157399156399153398154397153397154396157398157399157399156399153400153398154397154397157399157399157399154400154400153400153398156399157399157399156400156401154401154400153400156399157399156400157401156402154402154401154400154400156400157401157403)
 (.leaf 156408154406154405155405155404155404155405157407156408155408154406154405155405155405157407157408156411154411155410155408156408157408157409157411156414155414000000155412000000157413157413157414154420154421154420155418155417157417157419155420154423153424154423154422154421155421157423156424155425154425153424154423154422157423156424156425154425153425154425153424154423156424156425155425154428153427153427153425155425156425156426155428154429153429153428153427154428155428156428155430154431153432154430153429154429155430156430156431155435154433154432153432154431156431157432155434154436153437154437154436156435157435157436157437154440154440153437153437154436157437155437156440154440153440154440153437154438155437156440157441154441153441153440154440154440156440157441156442000000153442153441153440154440157441156442156443156444154445153442153442000000156443157443000000154445000000154445153442155442157443000000000000000000000000000000154445156444000000000000000000000000000000000000000000154445000000000000000000000000000000000000000000000000000000000000000000000000000000000000000000000000000000000000000000000000000000000000000000000000000000000000000000000000000000000000000000000000000000000000000000000000000000000000000000000000000000000000000000155512154512154509000000000000000000000000156510155513155512154512154509000000000000156510155513000000154520154519154518156518157518156519000000000000000000000000154520000000000000000000000000000000000000000000000000000000000000000000000000000000000000000000000000000000000000000000000000))
 (.node 1 (.leaf 155558155557155558000000000000155567153566154566155564000000000000000000156565154568154568153566154566000000000000156565156566156569154568155569154568154568156566157569157570156573153574154572154571155571157573157573157574154575153574153574154572155572157573157574156574155578153577154575153574154575156574156575000000000000000000153577154575155575156575000000000000000000000000000000000000000000000000000000000000000000000000000000000000000000000000000000000000000000000000000000000000000000000000000000000000000000000000000000000000000000000000000000000000000000000000000000000000000000000000000000000000000000000000000000000000000000000000000000000000000000000000000000000000000000000000000000000000000000000000000000000000000000000000000000000000000000000000000000000000000000000000000000000000000000000000000000000000000000000000000000000000000000156188000000000000000000000000000000000000157189156188156188000000000000000000000000000000156192155192155191156189157189157190158191157192000000000000155192155191157189158191157192000000000000000000000000000000000000156214157216000000000000000000000000000000000000157216000000000000000000000000000000000000000000000000000000000000000000000000000000000000000000000000000000000000000000000000000000000000000000000000000000000000000000000000000000000000000000000000000000000000000000155327155326000000000000000000000000000000155333155332156331155330156330157330157331156333155335155337154335154333156333158334157336157337155337154337155337154335156334157336157337156338)
 (.leaf 155339154338154337155337155335157337156338157339155341154339154339154338155339157339157340157341155341154340154339154339157340157340157341156342155343154342154340154339155341157341156342156342155345154346155345154344155343156343156345156345155348155347154347154346155346156346157346156348155352154352156349154349156348157350156351156351157354155354154352154352155352156351157353158354156357156356156354156354157354158354157356158356157360155361154359155357157359158358158359157361157362154362155361154359157359158359157361158361157363155363154362155361157360157361158361158361157363154364155363154362157362158361158361157362155364155365154364155363157363158361157362156364155372154372154371155370156370158370156371158372155373154373154372154371155371156371158372158374156376155374154373154372155372158372158374158375156377154377155374154373155373158374158375156376157383155384154383154381155382157382158383158383156385154385155384154383155382158383158383157385156386154386154385155384157383158383157385156386155392154392154391155389155389156390156390157391155393154393154392154391155391156390157391157392155393154394154393154392155392157391157392156394155395155395155394154394155393156394157394157395157398154396155395155394155395157394157395157398157399154397154396155395155395157395157398158399157399156399154397154396157398157398158399158399157404155403156402156401157401158402158403158403155404155404155403156402157403158403158403158404155405155405155404155403157404158403158404158406157407156408155405155404155404158404158406158407)))))))
 (.node 32 (.node 16 (.node 8 (.node 4 (.node 2 (.node 1 (.leaf 157408156408156408155405155405158406158407158409157411156411156410156408157408158409158409158411157413156413000000000000157412158412158413158414157419154420155417156417156416158417158418158419155420154420154420155417157417158418158419158419155421154421154420154420157419158419158419156421156424154423154422154421155421156421157423157424156425155425154423154422157423157423157424157425155428154428155426155425156425157425156426156428155430154429154429154428155428156428156428157429157432155432154431155430156430157430157431157432155434155435155432154431156431157431157432156434157437154436154436156435157435157436158436157436155437154438154436154436157436158436157436157437156440154440154438154436157437157436157437156440157441154440154440154438155437157437156440157441000000000000000000154445000000156445000000000000000000000000000000000000000000000000157459157460000000000000000000000000000000157459157460000000000000000000000000000000000000157460000000000000155513155513155512000000000000000000000000157511155513155514155513155512156510000000157511157514156515155515155514155513155513157511157514157515157515156515155515155514155513157514157515158516157518156518155517156515157515158516158516158517000000000000000000000000000000000000000000000000000000000000000000000000000000000000000000000000155558155557000000000000000000000000000000000000000000000000155557000000000000000000000000000000000000000000000000155557155558000000000000000000000000000000000000000000000000000000000000000000157569155569154568155567156565000000158566157569)
 (.leaf 157570156569155569154568156566158566157569157570157573155571155570156570157570158570158571158572157573155572155571155570157572158571158572158573000000155578155575154575156574157574158576000000000000000000155578155575156575158576000000000000000000000000000000155578000000000000000000000000000000000000000000000000000000000000000000000000000000000000000000000000000000000000000000000000000000000000000000000000000000000000000000000000000000000000000000000000000000000000000000000000000000000000000000000000000000000000000000000000000000000000000000000000000000000000000000000000000000000000000000000000000000000000000000000000000000000000000000000000000000000000000000000000000000000000000000000000000000000000000000000000000000157189000000000000000000000000000000000000157190157189157189000000000000000000000000159189000000000000156192157189158191157190158192000000000000000000000000000000000000157211158211159213156214000000000000000000000000158211159213157214000000000000000000000000156214157214157216000000000000000000000000000000000000000000000000157218000000000000000000000000000000157219158221158222000000000000000000000000000000158221158222000000000000000000000000000000000000158222000000000000000000000000000000000000000000000000000000000000000000000000000000000000000000000000000000000000000000000000000000000000000000000000000000000000000000156328000000000000000000000000000000000000158330156329156328000000000000000000000000000000156333155333155332156330157330158330159331158332158334156333155333155332157331159331158332159333))
 (.node 1 (.leaf 157336156334156333155333156333158332159333158336157337155335156334156333158334159333158336157336156343155343155343155341156342157341157343157343156346155346155345155344156345157344157346157347157350156348155348156346157346157347158347159349156351156349156348155348156348158347159349159350157353156353155352156349156351159350158352157352158358157359157358156357158356159357159358159358158370156370156369156368158369159369158369158370156371155371156370156369157369158369158370159372158372155372155371156370158370158370159372159373158374155373155372155371156371159372159373159374158375156376155373155372158372159373159374159374156376156377156376155373158374159374159374158375156379156380156379155378157376157377158379157379156386156386156385157383158383159383158385159384156388155388155388155386156387157386159387158389156389155389155388155388156388159387158389157389156394155393155393155392157391158391158392157394157398157398155395155395157394158394159395159396158399157399157398155395157395159395159396159398158403157403157401156400157400159400159402159403158406155405155404157404158403158403158404159406158407157407155405155404158404158404159406158406158412157412157411157409158409159410158411158412158419157419157417156416158417159417159418159419156421155421155420157419158419159419159420159422157423157423155421155420158419159420159422159422157424156424157423155421156421159422159422158424156426156426156425155425156425157425158425158426156428155428156426156425157425158425158426157428156434155434157432156431157431157432159433159434)
 (.leaf 157436157435155434157432157432159433159434159434156440156440155437157437157436158436159437158440157441157441156440155437157437159437158440157441156441156442157441156440156440158440157441158442000000157443156443156442156441158442157443157443156445000000000000157443000000157443157443157446000000000000000000000000156444157443157446157447000000000000000000000000000000000000158453159455000000000000000000000000000000158453159455158457000000000000000000000000000000159455158457158458000000000000000000000000000000158457158458159459000000000000000000000000157459159461158462000000000000000000000000000000157460158462000000000000000000000000000000000000000000000000000000000000157514155513155513156510000000000000158511158512157515156515155513155513157511158511158512158515158517157518156517157515158516158516158517158518157519156519157518156517158516158517158518158519000000000000000000000000000000000000000000000000000000155558000000000000000000000000000000000000000000000000155558000000000000000000000000000000000000000000000000155558000000000000000000000000158566156566156565000000000000000000000000000000157569157569156566156565000000000000000000159568157570157570157569156566158566000000159568159569158572157573157572157570158570159570158572159573158576156575156574157574157573158573000000000000000000000000156575156574157574000000000000000000000000000000000000156575158576000000000000000000000000000000000000000000000000000000000000000000000000000000000000000000000000000000000000000000000000000000000000000000000000000000000000000000)))
 (.node 2 (.node 1 (.leaf 159189157190000000000000000000000000000000000000157190158191157190000000000000000000000000158191158192157192158191157190159189000000158191158192000000000000000000000000000000000000159208158210159213000000000000000000157211160212160212160212157214156214000000000000158211160212160212159215157216157216156214000000159213160212159215159216000000000000157216156214157214159215159216000000000000000000000000157216157216159216000000000000157218000000000000000000000000000000000000159217157219000000000000000000000000000000159217159220158221000000000000000000157218159217159220158220000000000000000000000000000000158223000000159224000000000000000000000000000000000000159224159227000000000000000000000000000000159224159227159228000000000000000000000000000000159227159228000000000000000000000000000000000000000000158231159234000000000000000000000000000000158231159234000000000000000000000000000000000000159234000000000000000000000000000000000000000000000000000000000000000000000000000000000000000000000000000000000000000000000000000000000000000000000000000000000000000000158330000000000000000000000000000000000000159331157331157330158330000000000000000000160332)
 (.leaf 159333158334156333157331159331160332159332160334157336157337157336158334159333160334160334160336157339157339156338157337157336160336159338158339158340157340157339156338157338159338158339158339157347156346156345156345157344158344158344158346159349157350156348157346157347158347159349160350159350156351157350156348158347159349160350160350158352156351156351157350159349160350160350159350157352157353156351156351159350160350159350158352159354158354158354157353157352158352159354160354159357158356157356158354159354160354159356159357159358158358158358158356159357159357159358160358159360158361157361158359158358159358160360159360157363157362158361158361159360159360159361158364157364156364157362158361157362159361158364158365159369157369156367156366157366158366160368159369159369158369157369156367157367160368159369160369159372156371158370157369158369160369160371159371159374158374158372156371159372159371160373159373158379156378157376156376158375158375158376158379157379156379156378157376157377158376158379159380157381157382156381156379157379159380158381160381159383158383158383157382157381160381159383160383159384156386157385158383159383160383159383160385158389156388156388156387157386158386160387160388157389156389156388156388159387160387160388159390159395157395157394156394157394158393158394159395159396157398157395157394158394158394159395159396159398158399157398157395159395159395159396160397159398158399158399157398159396159396160397159398159402158402157400158400158399160399160400160401159406158406158404158403158403160403159404159405))
 (.node 1 (.leaf 159410158409158409158407158406159406159409159410158412158412158411158409159410159410159411159412159417158417158415158415159415159416160417160417159422156421158419158419159419160420160420159422159422157423156421158419159420160420159422159423158424157424157423156421159422159422159423159424158425157425157424157423159422159423159424158424157428156428156426157425158425159425159426159427157429156428156428156426158426159426159427159430157430157429156428156428157428159427159430158430157432157431157430157429157430158430159430159431159433157432157431157430157431159430159431159432159434156434157432157431157432159431159432159433159434157436156434157432159433159432159433159434159436158436157436156434159434159433159434160435159437157437157436158436159436160435159436160437158440156440157437157436158436159436160437159438157441157441156440157437159437160437159438159441157443157443156441157441157441159441158440158442157446156445156444000000157443158443158443158446157447000000156445156444157443158443158446159447000000000000000000000000157447159447158448000000000000000000000000000000000000158450158450158452159455000000000000000000000000158453160454160455158457000000000000000000158453160454160455159457158458000000000000000000159455160455159457159458159461157459000000000000159459159459159460159461158462157460157459000000157458159460159461159462000000000000157460157459159461159461159462000000158515157515157514157511158511000000159512158514000000000000000000000000000000000000000000000000000000000000000000000000000000000000000000000000)
 (.leaf 159568157569158566000000000000000000000000000000159569157570157569158566000000000000000000000000159570158570157570157569159568000000000000159571000000157574157573158573000000000000000000000000000000158576157574157573158573000000000000000000000000000000000000000000000000000000000000000000000000000000000000000000000000000000000000000000000000000000000000000000000000000000000000000000000000000000000000000000000000000000000000000000000000000000000000000000000000000000000000000000000000000000000000000000000000000000000000000000000000000000000000000000000000000000000000000000000000000000000000000000000000000000000000000000000000000000000000000000000000000000000000000000000000000000000000000000000000000000000000000000000000159189000000000000000000000000000000000000158192158192157190159189000000000000000000160190159193000000158192157190158191000000160190159193000000000000000000158192158192160190159193160194158210000000000000000000000000000000160208159210160212158211157211000000158210159210161210161212160212159213158211157211160212161210161212160212159216157216157214159213160212160212160215000000159220157219157218000000000000000000160217160218158220158221157219157218159217160217160218159220158223000000158222158221158220159220161221161222158223000000000000158222160222161221161222161223000000000000000000000000158223161222161223161224159227000000000000000000000000161224161225161225159228000000000000000000159224161225161225161226158231000000000000000000000000160229159230160233))))
 (.node 4 (.node 2 (.node 1 (.leaf 159234000000000000000000000000159230160233160234000000000000000000000000158231160233160234160235000000000000000000000000000000000000000000000000000000000000000000000000000000000000000000000000000000158330000000000000000000000000000000000000160334158336159333158332159332161333161334161335160336157336158336159333160334161334161335160335159338157338157336158336160334161335160335161336158339157339157338157336160336160335161336159338158344157344157343157343158342159342159342159344158346157347157346157344158344159344159344160347158347157347157347157346158344159344160347159347160350159349158347157347158347159347160349161349158352157352158352159350160350160351161351161352159354158354157352158352159350161351161352160354160354159354158354157352158352161352160354161354160360158361158358159358160358160357161359161360158364157363157362159360159360160360160361160364158365157364157363157362159361160361160364161364158366157365157364157363158364160364161364161365158366157366157365157364158365161364161365159367160368157367157366157365158366161365159367160368160369159369159369157367160368160368160369161369160371158370158369159369160369161369161369161371158375158375159374159374159373160373161374159376158379158379157377158375158375159376160376160379159380157379158379157377158376160376160379159380158381157380157379158379158379160379159380161381159383158383157381157380158381161381161381161381160383159383158383157381160381161381161381161382158386157386159384158385159383160383161385161385160387159387157386159384160385161385161385161387)
 (.leaf 159390157389158389159387160387161387160387160388158390157390157389158389160388160387160388160389158392158392158391157391159390159391160391159393160397159398159396159395159395160395161396161397160399158399159398159398160397161397160398161399160401159402159400158399160399161399161400161401159409159409158406159406159405159405159406160409159410159410159409158406159406159406160409159410159423159422159422159420160420161421161421160423159430157429157428158426159426160426160427159430158430157430157429157428159427160427159430160429160435159436159434159434159433159434159434160435159441157441158440159437160437160437160438159441158440158442157441158440159438160438159441159441159447157447157446157443158443159444159444160445158448000000157447157446158446159444160445159448158450000000000000000000000000159449161451159451160454158453000000000000158452161452159452161454160455159455158453000000158453159452161454161455159458158458158457159455160455161455159457159457160516158516158515158512159512160512159513161516160517158517158516158515158514159513161516161517160518158518158517158516160516161516161517160518000000158519158518158517160517161517160518000000000000000000158519158518160518160518000000000000000000000000000000158519000000000000000000000000000000000000000000000000000000000000000000000000000000000000000000000000000000000000000000000000000000159568000000000000000000000000000000000000000000000000158573000000000000000000000000000000000000000000000000000000000000000000000000000000000000000000000000000000000000000000000000000000))
 (.node 1 (.leaf 158191000000000000000000000000000000000000159193159193158192158191000000000000000000000000160194000000159193158192160190000000000000162192000000000000000000159193159193000000162192161195000000000000000000000000000000161195000000000000159210158210159208000000000000000000162210160210161212160212160212158210159210160210161210161211160215159215160212160212161212161211161214161215000000159216159215160212160212161214161215161216159220158220159220159217160217161217162219162220161221160222158220159220160218162219162220162222161222158223160222158220159220162220162222162223161224000000158223158223161222162223162223162224161225159224000000158223161223162223162224162225161225159227159224000000161224162224162225162225161226159228159227159224161225162225162225162227160229000000159228159227161225162225162227161229159229000000000000159228161226162227161229160229160233158231000000000000160229160230160232161233161334160334159332160332000000000000000000162333159338158339159338160336160335162335162337161337159339158339158339159338161336162337161337160340)
 (.leaf 159340158340158339158339159338161337160340160340159344158344158344158343159342160343160343162345160347158346158344158344159344160343162345162346159347158347158346158344159344162345162346162348161349160350159349158347159347162348162348162348160354159354158352159350161351161352162352161354161354160354159354158352161352162352161354162354160357159357159356160354161354162354161356161357161357159358159357159356161356161356161357162357161360160360159358160358160357162358162359162360160364158364159361159360160360162360162362162364161364158365158364159361160361162362162364162364159367158366158366158365161364162364162365161367160368160368158366158366161365162365161367161368160369159369160368158366159367161367161368161369161371160371160369160369161369161370162370162371161374159374159373160373160372161372162373162375159376158375159374159373160373162373162375162376160379158379158376158375159376162376162377162378159380159380158379158376160376162377162378162379161381160381158381159380159380162379162380162381161382160383159383160381161381162381162381160383161387160387158386160385161385161384161385161386161396159396159395158394159394160395160395161396159404159404160403159402160402160402160403161404159405159405159404160403160403160403161404160406160409159409159406159405159405160406160408160409160413160413159412159411159410160410162412161413160414159414160413159412159411162412161413161414161421160420160420160418161419161419161420161421160423159423159422160420161421161421161422161423160424159424159423159422161421161422161423160423)))
 (.node 2 (.node 1 (.leaf 159430159430159427159426160426161426161427160429159430159430158430159430159430160429161429160431159434159433159432159431160431160431160432160434159441159441159438160437160437161439161440160440159443158443158442158440159441160441162442162443159444158443158443158442159442162442162443162444159444158446158443158443159443162443162444162446159448158448159447158446159444162446161447161448159449000000158448159447160445161447161448161449159449000000000000158448159448161448161449161450161451158450000000000000159449161449161450162450159451158450158450000000159449161450162450161452161452158452158450158450161451162450161452161453159452158453158452158450159451161452161453161454161454160454158453158452161452161453161454162454159457159458159457160455161455162455162456162457161458159459159458159457159457162456162457161459161460159460159459159458159457162457161459161460160461159461159460159459161458161459161460161461000000159462159461159460161460161460161461000000159513158514159512000000000000000000161512161513161516160516158514159512160512161512161513161516161517160517160516158514159513161513161516000000000000000000000000000000000000000000000000000000000000000000000000000000000000000000000000000000000000000000000000000000000000000000000000000000000000000000000000000000000000000000000000000000000000000000000000000000000000000000000000000000160571159571000000000000000000000000000000162570160572159572159571000000000000000000162570000000000000000000000000159573000000000000000000000000000000000000000000000000000000000000000000000000)
 (.leaf 161612000000000000000000000000000000000000161612000000000000000000000000000000000000161612000000000000000000000000000000000000000000000000000000000000000000000000000000000000000000000000000000000000000000000000000000000000000000000000000000000000000000000000000000000000000000000000000000000000000000159193160190000000000000000000000000000000162192160194159193160190000000000000000000000000161195000000160194159193000000000000000000163194000000000000000000160194162192000000163194163195000000000000000000000000000000000000000000000000000000000000000000000000000000000000000000000000000000000000000000000000000000000000000000000000000000000000000000000000000000000000000000163204000000000000000000000000000000000000163204000000000000000000000000000000000000000000000000161208160210159210160208000000000000161208162210161210161215160215160212161212161211161211161214161215162219160218160217000000000000162216163219163220162220159220160218160217161217163219163220162221162222161221159220160218162219163220162221162222161229160229161226161225162225163226163227163228160229159229160229161226162227163227163228163229160232159230160229159229160229163229163231163232161233160233159230160229160230163231163232161233))
 (.node 1 (.leaf 161234160234160233159230160232163232161233161234160237000000000000000000160235162236162237162238000000000000000000000000160236162237162238000000000000000000000000000000160237162238000000000000160340159339159338161336162337163337163338163339160340159340159339159338161337163338163339163339160341159341159340159339160340163339163339161341160343159344159342159342160342161342162344162345162345159344159344159342160343162344162345163345162346160347159344159344160343162345163345162347162348159347160347159344162345163345162347163347162348160349159347160347162346162347163347163349162348161349160349159347162348163347163349162350161352161351160351161349162348162350163350163352162354161354160354161352162352163352162354163355161357160357161356161354162354163355162356162357162359161359160357161357162357162358163358163359162362160361160360161360162360163360163361163362162364160364160361160360162360163361163362162364162364161364160364160361162362163362162364163364161368160368159367161365162365163365163366163367162373160373160372160371162372163373163373162373162376159376161374160373162373162373163374163376162377160376159376161374162375163374163376163378162378160379160376159376162376163376163378163379162379159380160379160376162377163378163379163380162380161381159380160379162378163379163380163380162381161381161381159380162379163380163380162380162388160388160387161387161386161387162387162388160390160389160388160387161387162387162388162389160391159391160389160388162388162388162389161391160394160393159393160391160392162393161392162395)
 (.leaf 160395159394160393159393160393161392162395161396160395160395159394160393160394162395161396161396162398160398161397161396161396161396162397162398160408159406159405159404161404161405163406161408160409160409159406159405160406163406161408161408160410159410159410160409160409161408162410162411162412159411159410159410160409162410162411162412161413160413159411159410160410162411162412161413161414160414160413159411162412162412161413161414161417161417160416160415162414162415162416162417160429159430160427160426161426162426162427163429160431159430160429159430160429163429163430162430160431160431159430160429161429163430162430161432160434159434160432160431160431161432162432163434160435159434159434160432160432162432163434161435160436159436160435159434160435161435162437163438161439160437159436160435160436162437163438163438161440160438160437159436160436163438163438162440162442159442159441159441160440161440163441163442162443159443159442159441160441163441163442163443162444159444159443159442162442163442163443163444162446159444159444159443162443163443163444163446161447160445159444159444162444163444163446163447161448159448160445159444162446163446163447163447162457159457159457161455162455162456162457163458161459161458159457159457162456162457163458163458161516161516159513160512161512000000162515162516000000161517161516159513161513162515162516000000000000000000000000160518000000000000000000000000000000000000000000000000000000000000000000162519000000000000000000000000000000000000162519162522000000000000000000000000000000162519162522000000)))))
 (.node 8 (.node 4 (.node 2 (.node 1 (.leaf 161558000000000000000000000000000000000000161558161558000000000000000000000000000000161558000000000000162570160571000000000000000000000000000000000000000000160572160571000000000000000000000000000000000000000000160572160571162570000000000000000000000000000000000000160572000000000000000000000000000000000000000000000000000000000000000000000000000000000000000000000000000000000000000000000000000000000000000000000000000000000000000000000000000000000000000000000000000000000000000000000000000000000000000000000000000000000000000000000000000000000000000000000000000000000000000000000000000000000000000000000000000000000000000000162611000000000000000000000000000000162611000000000000000000000000000000000000000000000000000000000000000000000000000000000000000000000000000000000000163194161195162192000000000000000000000000000000163195000000161195162192000000000000000000000000000000000000000000161195163194000000000000000000000000000000000000000000163195000000000000164197000000000000000000000000000000000000164197163199000000000000000000000000000000164197163199000000000000000000000000000000000000163199000000000000000000000000000000000000000000000000000000000000000000000000000000000000000000000000000000000000163204000000000000000000000000000000000000000000000000000000000000000000000000000000000000163203000000000000000000000000163204000000163203000000000000000000000000000000000000163203000000000000000000000000000000000000000000000000000000162208161208000000000000000000000000000000162208162208)
 (.leaf 161211161211161210160210161210162210163212162212163219161217000000000000161216164216164217164219163220162219161217000000162216164217164219164220163227162227162225162225163225164225164227164227163229160229161229162227163227164227164228164229163231160230160229161229163228164228164229163231163232160232160230160229163229164229163231163232161233161233160232160230163231163231163232163233161234161234161233160232163232163232163233163234161235161235161234161233161233163233163234162235162236160235161235161234161234163234162235162235000000000000000000000000000000162238162238000000163337162337162335162334163334164335163335164336163339160340161337162337163337164336164337163338163339160340160340161337163338164337163338164339161341160341160340160340163339163338164339164341161342160342160341160340163339164339164341164341162344160343160342160341161341164341164341163344162345160343160343160342161342164341163344164344163350162350162348162348163349164348164348164350163352162352161352162350163350164350164352164352163355162354161354162352163352164352164353163355162357161357161356162354163355163355163356162356163362162362162360162360163360164360164362164362163364162364162364162362163362164362164363164364163367161368161367162365163365164365164366164367161369161369161368161367163366164366164367164368161369161370161369161368163367164367164368162369163374162375162373161372163373164373164374164374161383160383162381162381162380162380163381163382161384160384160383162381162381163381163382163385161385161384160384160383161383163382163385162385))
 (.node 1 (.leaf 161387161386161385161384161385162385163385162387161391160391160390162388162388163388163391162392162393160392160391160390162389163391162392162393161401161400161399162398162398162398162399162401161403160403160402161401161402162402164403164404161405161404160403160402161402164403164404164406163406160406161404160403161403164404164406163407161408160408160406161404161405164406163407164406161408160409160408160406163406163407164406164409162410160409160409160408161408164406164409162410162411160410160409160409161408164409162410163411161424161423160423161423161422162422162424162424163429160429161427161426162426163426163427163428163430161429160429161427162427163427163428163429161432160431160431161429163430163429163430163431161435160435160434160432162432162433163435164435162437160436160435160434163434163435164435163435163438160436160436160435161435164435163435164437162440161440161439160436163438164437162439163440163442162442160441160440161440164441163442164443163447161447162446162444163444164444164445164447162449161449161448161447163447164447164447164447163450161450161449161448163447164447164447163450162454161454161453161452163451163452163453164454162460161460161459162457163458163458163459000000000000161461161460161459163458163459000000000000162515161513161512000000000000000000000000000000162516161516161513161512000000000000000000000000162522000000000000000000000000000000163519162521161558000000000000000000000000000000000000000000161558000000000000000000000000000000000000162558000000000000000000000000161558162558163560000000)
 (.leaf 162570000000000000000000000000000000000000000000000000000000000000000000000000000000000000000000000000000000000000000000000000000000000000000000000000000000000000000000000000163607000000000000000000000000000000000000163607000000000000000000161612000000000000000000162609164610162611000000000000000000161612000000162611000000000000000000000000000000000000000000000000000000000000000000000000000000000000000000000000000000000000000000163194000000000000000000000000000000000000164197000000000000163195000000000000000000000000163199000000000000000000000000000000000000000000000000000000000000000000164197000000000000000000000000000000000000000000000000000000000000000000000000000000000000000000000000000000000000000000000000000000000000000000163203163203163206163206162209162210161208000000162208163207163209163210162212161211162210161210162210163210164212163212162214161215161214161211162212163212164212163215162215161215161215161214162213164212163215164216164217162216161216161215162215164216165217164218164219163219162216161216164216165217164218164219164220163220163219162216164217164218164219164220163232163232163231163229164229164230163231163232162236162237162236161235162235163234165235165236162237162238162237162236162235165235165236163238162238000000162238162237162236165236163238163239164336163337163335163334164335164334165335165336164341161341163339163339163338165338165340165340164341161342161341163339164339165340165340165342163344162344161342161341164341165340165342165343164344162345162344161342164341165342165343164345)))
 (.node 2 (.node 1 (.leaf 164347163347162347163345164345165345165346165347164348162350163349163347164347165347165348164348164352163352163352163350164350165351165351165352163355163355162354163352164352165352165352164355163356162356163355162354164353165352164355163355163359163358162358162357162356164357163358164359164364163364162364163362164362165362165364165364162369161369161369163367164367165366165368164368162370162371161369161369164368165368164368163371162372162372162371161369162369164368163371165371164373163373163373162372162372165371164373165373164375163376163374162373164374164373164374164375164378163379163378163376164375164375164376164377163385161384161383162381163381163381164382163384162387161387162387161385162385163385163385163387163391162389162388162387162387164389164390164391162392161391162389162388163388164390164391163391162393161392162393161391162392163391164393163393162395161396162395161392162393163393164395163395162398162397161396161396162396163396163398163398162399161400162398162397162398163398164398164399162402161402161401161400162399164399163400164403164403161402161402161401162401163400164403165403164404161403161402161402162402164403165403165403164406161405161403161402164403165403165403165405163407163406161405161403164404165403165405165405162410162410161408161408164406164406165408165409163411162411162410161408164409165408165409164411162411162412162411162410162410165409164411163412162415162416162415161414162413163413163415163416162418161418162418162417162416163416163418164419162433162432161432162430163430164430165433163433)
 (.leaf 164437163438162437161435164435165434164437000000162439163438163438162437163435164437000000164437164441161440162440163438162439164437164440164441164447163447163446163444164444165444165444164447163450163450162449163447164447165447164447164450164451162451163450162449164447164447164450165451162455162456162455162454164454164454165454165455162457162457162456162455164454165454165455165456163458163458162457162456162455165455165456165457163459163458163458162457162457165456165457164459000000000000000000162460000000000000000000000000000000000000000000000000000000000000000000000000000000162515000000000000000000000000000000000000000000162516162515000000000000000000000000000000000000000000162516162515000000000000000000000000000000000000000000162516000000000000000000000000162521162522162519000000000000000000164519163522000000000000162522162519163519164519163522164523000000161558000000000000000000000000000000000000162558161558161558000000000000000000000000000000163560000000161558161558000000000000000000165559000000000000000000161558162558000000165559000000000000000000000000000000000000000000000000000000163607000000000000000000000000000000000000000000000000000000000000000000000000000000000000000000164610162611000000000000000000163608165609164609162611000000162611000000162609165609164609165611000000000000000000000000162611165611163611000000000000164197000000000000000000000000000000000000000000000000163199164197000000000000000000000000000000000000000000163199000000000000000000000000163203163203000000000000000000000000000000000000))
 (.node 1 (.leaf 163206000000163203000000000000000000000000164205163207162208000000000000163206164205165205164207163210162209162208162208163207164207164209165210163212162212163212162210163210164210165212164212163215162214162213162212163212164212164212165215164216162215162214162213164212164212165215165216165217164216162215162214163215165215165216165217164223163223163222163221163221165221165222165223164234163234163233163232163232164231164231165234163234162235163234163233163232164231165234164234165236162236162235162235163234164234165236166236163238162237162236162235165235165236166236165238163239162238162237162236165236166236165238166238164240162238162238162237163238165238166238165240163240000000162238162238163239166238165240164241000000000000000000000000163241164241000000000000165338163338164337164336165336166336166337166339165340164341164339163338165338166339165339166341165343163344164341164341165340166341165341166343164345164344163344164341165342165341166343166344165347164347164347164345165345166345166346166348165351164350164348164348165348166348166349166350165352164352164352164350165351166350166351166352163355163356163355164353165352165352166354166355163358163358162356163356163355166355164357166358164360164359163359163358163358166358166358165360165362164362164362164360165360166360166361166363163371162370162369164368165368166368166368166370165371162372162370162369164368166368166370166371164373163373162372162370163371166370166371165373165373164373163373162372165371166371165373166373163379163379163378164378164377164378165378164380)
 (.leaf 163381163381162380163379163379164380165380164382163384163385163382163381163381164382164382166384163385162385163385163382164382164382166384164386163385163385162385163385163384166384164386164386164389162387162387163385163385164386166386164389164390163388162387162387163387166386164389165390163398162398162396162395163395164395164395165398163398162398162398162396163396164395165398164398163400162401162399162398164398164398165399165400164403162402162401162399164399165399165400166401165403164403162402162401163400165400166401166403165405163407164406164404165403166404166404166406165408164409164406163407165405166406166408166408165409162410164409164406164406166408166408166408163412162411163411162410165409166408166409164412163416162416162415163415163415165415164416164416164419162418162418162416163416164416164418164419163420162421163421162419163419164419164421164421163424162424162424162422163422164422164422164424163429163429163428163427164427165427164428165429165433163431163430163429163429165429165430166432163433162433163431163430164430165430166432165434163434163435162433163431165433166432165434166434165434164435163435162433163433165434166434166434000000164437163435164435165434166434166436164437164440163440162439164437000000164437164439165440165444164444164443163442163442166441165443165444165447164447164447164445165444166445166446165448164450163450164447164447165447165448166448166449165451164451163450164447164447166448166449165451165454164454164454163453165452166453166453166454165456162457162455164454165454166454166455166456))))
 (.node 4 (.node 2 (.node 1 (.leaf 165457163458162457162455165455166455166456166458164459163459163458162457165456166456166458000000000000000000163459163458165457166458000000000000163522162521163519000000000000000000165519164521000000000000000000162521163522164521165523000000000000000000000000000000000000000000000000000000000000162558000000000000000000000000000000000000165559163560162558000000000000000000000000000000000000000000163560162558000000000000000000000000000000000000000000163560165559000000000000000000000000000000000000000000000000000000000000000000000000000000000000000000000000000000000000000000000000163607000000000000000000000000000000000000000000000000163607000000000000000000000000000000163608000000000000163607000000000000000000000000165609162609000000000000000000000000000000165608163611000000162611164610164609165611000000165613000000000000000000162611165611000000165613000000000000000000000000000000000000000000000000000000000000000000000000000000000000000000000000000000000000000000000000000000000000000000000000000000000000000000000000000000000000000000000000000000000000163203000000000000000000000000000000000000164205163206163203000000000000000000000000000000164209163209163207163206165205165206166206165208164210163210163210163209164209165208165210165211165215163215164212163212164212165212165212166213165216164216163215164212164212165212166213166216165221163221164220164219164219166219166220166221164228164229164228164227164227166225165228165228164231163232163231164230164230165229165229166232164231163232163232163231164230165229166232165232)
 (.leaf 164234163234164234163232164231165232166234165234166238163239163238165236166236166237166238166239164241163240164240163239166238166239166240166241000000000000163241163240164241166241166242000000000000000000000000163241164241166242000000000000000000000000000000000000000000000000000000000000000000164334000000000000000000000000000000000000166345165345164345165343166343167343167345167345166350165351164348165348166348166349167349167350166351165351165351164348166349167349167350166350166354164355165352165352166352167352167352167353166355163355164355165352165352167352167353167354164357164357163355164355166354167353167354167356166358163358164357163355166355167354167356167357166358164359163358164357164357167356167357166359165360164360164359163358166358167357166359167360166360165360164360164359166358166359167360167360166363165362164360165360166360167360167362167362166365165364165364165362166363167362167363167364166366165366164364165364166365167364167365167366166368165368165366165366166366167366167367167368166370163371164368165368166368167368167369167370166371165371163371164368166368167369167370167370166373165373164373165371166371167370166373167373166376164374164373165373166373167373167373167375166376164375164374164373166374167373167375167376166377164376164375164374166376167375167376167376164378164377164376164375166376167376167376165378164380163379163378164377164378165378165378166379164382164382163381163381165380165381166381167383166384163384164382163381164382166381167383167385164386163385163384164382164382167383167385167385))
 (.node 1 (.leaf 164386163385163385163384166384167385167385167385166386163387163385163385164386167385167385166386164389164389163387163385164386167385166386167388165390164390164389163387166386166386167388167388164391164391164390164389164389167388167388165391164398163398163398163396164395165396165396165398166401164403163400164399165399165400167400166401166403165403164403163400165400167400166401166404166404165405165403165403166403166404167404166404166408164406165405165405166404166404166405167406166408165408164406165405166406166405167406167408164412163412164411165409166408167409167409167410164413164413163412164411166409167409167410167412164414163413164413163412164412167410167412165414165415163415163413164413164413167412165414165415164419163419164419163418164418165417165419165419164422163423163422163420164421165421165421165423164426163426163425163424164424165424166426165426166432165433164430163429165429166429166430167432165434163433165433164430165430166430167432167432166436164437165434163434166434166433166434167435164437000000164437165434166434166434167435167437164439164437000000164437166436167435167437167438165440164440164437000000164437167437167438167439166441164441164440164437164439167438167439167440165443165443163442164441166441167440166442167442165444165444165443163442166441166442167442166444166446164447165444165444166444167444167445167446165448165447164447165444166445167445167446167447165451165451164450164447166448167448167448166451166452164452165451164450166449167448166451166452166454165454164454165452166453167453166454166455)
 (.leaf 164459165457166458166458000000000000000000000000000000164459000000000000000000000000164521163522164519000000000000000000166519167521165523164523163522164519165519166519167521167522000000000000164523163522164521167521167522000000000000000000000000000000000000000000000000000000000000165559000000000000000000000000000000000000000000000000000000000000000000000000000000000000000000000000000000000000000000000000000000000000000000000000000000000000000000000000000000000000000000165611164609165609165608165608000000000000000000000000163611165611000000000000000000000000000000000000000000000000000000000000000000000000000000000000000000000000000000000000000000000000000000000000000000000000000000000000000000000000000000000000000000000000000000000000000000000000000000000000000000000000000000000000000000000000000000000000000000000000000000000000000000000000000000000000000000000000000000000000000000000000000000000000000000000000000000000000000000000000000000164205000000000000000000000000000000000000165206165205164205000000000000000000000000166206165208164209164207165205165206166206167206166208165211164210165210164209165208166208167210166211166212165212164210165210165210167210166211166211166217165217165216165215166213166214167216167217165228164228164227164227166225166225166226166228165229164230164230164228165228166228167228166230165232164231164231164230165229166230167230166233000000000000000000000000000000166243000000000000167340166341165339166339166338000000168339168341167343166343165341166341167340168341168341167344)))
 (.node 2 (.node 1 (.leaf 166349166348166348166346167346168346168347168349167353166354165352166352167352168352168353168354167357166358164357166355167354168355168356168357166359166358166358164357167356168356168357168357167363166364166363166361167362168361000000000000167370166370166368166368167368000000168369168370167373166373165373166371167370168370168371168373167376166376166376166374167373167373168376168376165378165378164378166377167376167376168378166379167383164382164382165380165381168382168382168382167385166384164382164382166381168382168382168385167385164386164386166384167385168385168385168386167388164389166386164386167385168386168387168388167388165390164389166386166386168387168388168389165391164391165390164389167388168388168389167391165392164391164391165390167388168389167391167392165393164392164391164391165391167391167392166393167394164394164392164391165392167392166393167394165396164395165395164394167394167394166395166395165398164398165398164395165396166396166396168398165400165399164398164398165398168398168398168401167400165400165399164398166398168398168401168401166404166403166401165400167400168401168402167402167408166408166408166406166405168406168408168408167410164412166409166408167409168409168410167410167412164413164412166409167409168410167410168411165414164414164413164412167410167410168411166413165417164418164416164416165416166415166417166417165421164422164421164421165420166420166420166422165424164424164422164422165421166422166422166425166426164425164424164422165423166422166425166425165428165427164426164426165426166426167426167427)
 (.leaf 165428164428165427164426166426167426167427166429167432166432165430165429166429166429168431167431167435166436166434166434166433166434000000168437167438164439164437166436167435168437167438168439167439165440164439164437167437167438168439168440167440166441165440164439167438168439168440168441166442166441166441165440167439168440168441168442167444166444165444165443167442168443167444167445167448166448165448166446167446168446168447168449166452166452165451166449167448168449168451167452167521164521165519000000000000000000000000000000167522165523164521165519166519000000000000000000000000000000165523164521167521000000000000000000000000000000000000165523167522000000000000000000000000000000000000000000000000000000000000000000165560000000000000000000000000000000000000000000165561000000000000000000000000000000000000167560000000000000000000000000165560000000167560166562000000000000000000000000000000000000167594167595000000000000000000000000000000167594167595000000000000000000000000000000000000167595000000000000000000000000000000000000000000000000000000000000000000000000000000000000000000000000000000000000165608165608000000000000000000000000000000166609000000000000165611165608165608166609000000000000000000000000165613000000000000000000000000000000000000000000000000000000000000000000000000000000000000000000000000000000000000000000000000000000166206165206000000000000000000000000000000167206166208165208166206165206166206167206168206167208166211165211165210165208166208167208168208167210166212165212166212165211166211167210168210167213))
 (.node 1 (.leaf 166213165212165212166212166211168210167213168214167217166217166216166213166214167214169216169217166226165228166225165225166225168224167225167227166230165229165229165228166228169227167228167230166234165234166234165232166233167232168232167234166236166237166236165234166234167234167234169237166237166238166237166236166235167234169237168238166238166239166238166237166236169237168238167239168240166240166239166238166237168238167239168238168241166242166241166240168240168238168241167242168339167340166338167338000000000000000000000000168341167342167340167340168339000000169340169341168349166349167346167346168346169347169347169348168350167349166349167346168347169347169348169349168352167352166350167350168350169350169351169352168356167356167354167353168354169354169355169356167360167360166359167357168357168356169358169359168361167360167360166359168357169358169359000000000000167362167362167360168361000000000000000000168371166373167370167370168370000000168370169371168373167373166373167370168370168370169371169372168376167375167373167373168373169372169374169376166379165378165378167376167376167377168377168378166380166379165378165378168378168377168378169381168382165381166379165378166379168378169381169381168382166381165381166379166380169381169381169382168382167383166381165381168382169381169382169382168385167385167385167383168382169382168383169386168387166386167385167385168385169386169386169387168388167388166386167385168386169386169387169387167391165391167388167388168388169387169390169391167392165392165391167388168389169390169391169392)
 (.leaf 166396165396165396165394166395168395169396167396168398165398165396165396166396167396168398169398168398166398165398165396166396168398169398169399168401165400166398165398168398169398169399169399168402166401167400165400168401169399169401168401168404167404166404166401168402168401168402169403168406166405166404167404168404169403168406169406168408167408167406166405168406169406168406169408168411167412167410167409168410169409168410169411166414165415165414167412168411169411169412167414166418165419165417166415166417168415167416167418166422165421165421165420166420167420167422167422166429165428165428166426167426167427168427168428166429166429165428165428167427168427168428169431168431166430166429165428166429168428169431169431166434166433167432167432167431169432169432169434000000166434166433167432166433169432169434169435167438167437167435166434000000169435169437168438168443167442166442167440168441168441168442169442167445167444166444167442168443169442169443168445168451166451167448167448168449169449169449168451167452166452166451167448168449169449168451168452167453167453166452166451168451168451168452169452168455167455166455166454168453169453169454169455167458166458166457167455168455169455168457000000000000167521166519000000000000000000000000000000000000000000000000167522000000000000000000000000000000165560000000000000000000000000000000000000166562000000165561165560000000000000168560167562000000000000000000000000166562167562169562167564167594000000000000000000000000000000168591168594167595000000000000000000000000168591168594168595))))))
 (.node 16 (.node 8 (.node 4 (.node 2 (.node 1 (.leaf 166609165608000000000000000000000000000000000000000000000000165608000000000000000000000000000000000000000000000000165608166609000000000000000000000000000000000000000000000000000000000000000000000000000000000000000000000000000000000000000000000000000000000000000000000000000000000000000000167206166206000000000000000000000000000000170206167208166208167206166206167206170206169206168208167210166211167210166208167208168208168210168210167213166212166211166211167210168210169210168212167214166214166213166212167213168212170213170215169217167217167216166214167214170215170216170217168218167218167217167216169216170216170217169218168219167219167218167217169217170217169218168219168222167222167221167220167220169220169221169222167225166225166225167225167225168224169224169227167227166226166225166225168224169224169227170227169227166228166226166225167225169227170227169227167228167228166228166226167227170227169227169228167230166230167228166228169227169227169228168231167231167230166230167228167228169228168231168231167234166234166233166233167232168231168232168234169237166236166235166234167234168234169234169235168238166237166236166235167234169234169235170236167239166238166237166236169237169235170236168238167244000000166243166242167242168242169244168244169340168341168339000000000000000000000000000000168344167344168341168341169340000000170342170343)
 (.leaf 169345168345167344168341169341170342170343170344169349168350168349168347169347170347000000000000169359167360168357168357168356000000000000000000000000168361167360168357169358000000000000000000000000168361168361167360169359000000000000000000000000000000000000000000000000000000000000000000169372168373168371168370168370169370170372170373169376168376167373168373169372170373170374170375169376168376168376167373169374170374170375170376169381166380166379168378168377168377168378170380169381168382166380166379168378168378170380170382169382168382168382166380169381170380170382170382169386168385168385168382169382170383170384170385169392167392167391168389169390170389169391170391169392166393167392167391169391169391170391169393167393167394166393167392169392170391169393170393168395166395167394166393169392169393170393170395169396166395166395167394167393170393170395170395168398166396166396166395169396170395170396170398169398168398166396166396167396170396170398170398169399168401168398168398169398170398169398169399169401168401168401168398169399169398169399169400169403168404167402168402168401170402170403170405169406168406167404168404169403170405170405169405169408168408168408168406169406169405170407169407169412166413168411167410168410169410169411169412167414166414166413168411169411169411169412169413167415166415166414166413169412169412169413168415167416166417166417166415167415168415168415168417167423166422166422166420167422168421168423168423167425166425166425166422167423168423168423168425169431166429166429167427168427168427169428170430))
 (.node 1 (.leaf 169431168431166429166429168428169428170430169432169432166433167431168431169431169432170432170433169434166434166433167431169432170432170433170433169435000000166434166433169432170433170433169434169437168437000000166434169434170433169434169437168438167438168437000000169435169434169437169438168446168446167445167444169443170444170444170445168452167452168451168449169449170450170450170450000000167458167457168455169455170455000000000000000000000000000000000000000000000000000000000000000000000000000000000000000000000000000000000000000000000000000000000000000000000000168550000000167562166562167560000000000000000000169560170562169562166563166562167560168560169560170562169564167564000000166563166562167562170562169564168564000000000000000000000000167564168564169566000000168594167594000000000000000000169590169591169594168595167595167594000000168591169591169594169595000000000000000000000000000000169597000000000000000000000000000000000000000000000000000000000000000000000000000000000000000000000000000000000000000000000000166609000000000000000000000000000000000000000000000000166609000000000000000000000000000000000000000000000000000000000000000000000000000000000000000000000000000000000000000000000000000000000000000000000000000000000000000000000000170206167206000000000000000000000000000000171206168208167208168206167206170206171206170206169208168210167210168208167208168208169208170210169210168212167213168210167210168210169210171210170211170213168214167213168210169210171210170211171214170215167214168214167213168212170211171214171214)
 (.leaf 170216169216167214168214170213171214171214170216170217169217169216167214170215171214170216170217169221168221167220168219168219170219170220169221169227167225168224167225168224169224170224171225170227167227167225168224169224170224171225171227168231167230167228169227169227171227169228169230168232168232167232167231168231169231169233169233170236168238169237167234169234169234170235170236168239168238167239168238170236170236171239171239169241168241168238167239168238171239171239171240169242167242168241168238168239171239171240170242168251000000000000000000168249169249170251169251170343168344169341169340000000000000000000000000170344169345168344169341170342000000000000171344170347169347169347169345169344171345000000000000000000169358168356169356170356000000000000000000000000000000000000000000000000000000000000000000000000000000000000000000000000000000000000000000170374169374169372169371170372171372171373171374170376169376169376169374170374171374000000000000168377168377167377169376170376000000000000171377168378168378168377167377170377000000171377171378170380169381168378168377168377171377171378171379170382169381169381168378168378171378171379170380170384168383169382169382170382171382170382171383170385169386168383169382170383170382171383170384170386169386169386168383170384171383170384170385170389169390169387169387169386170386171388171390169391169391169390169387170388171388171390171390170395169396168395167393170393171394170395171396170396167396169396168395170395170395171396171397170398169398168398167396170396171397171397170397)))
 (.node 2 (.node 1 (.leaf 170403168402168401169401169400169400171401171404170405168406169403168402170403171404171404171405168415167415167414169412169412171412171413170414168415168415167415167414169413171413170414169416168419167419167418167416168417169416169417169419168423167422167422167420168420169420169420170423168423167423167422167422168421169420170423169423170430169431168428168427168427170429000000171430169432169431169431168428169428000000171430170432170433169434169432169432170432171432000000170433169438168438169437169435169434171435170437170438170445168446168445169443170444171443171444171444170446168447168446168445170444171444171444171445169448168448168447168446170445171444171445171446169449169449168448168447170446171445171446170449170450168452168451169449170450170450171450171450170453169452168452168451170450171450171450170453000000000000168457169455170455170454000000000000000000000000000000168457000000000000000000000000168550000000000000000000000000000000000000000000000000000000000000000000000000000000000000171552000000000000000000000000168550000000171552169553000000000000000000000000000000169553169555000000170562167562168560000000000000000000000000171562169594168594168591000000169590169591171592169593000000000000000000000000000000000000000000000000000000000000000000000000000000000000000000000000000000000000000000000000000000000000000000000000000000000000000000000000000000000000000000000000000000000000000000000000000000000000000000000000000000000000000000000000000000000000000000000000000000000000000000000000000000000000000000000000)
 (.leaf 171206170206000000000000000000000000000000171205169208168208169206170206171206171205170208170208169210168210168210168208169208170208171210170210171214170213168212169210171210171210172213171214170216170216170215170213171214171214171215170216170220169220168219169218169218171218171219171220170223169223169222169221169221171221170222172223171225169227169224168224169224170224170224172225171227170227169227169224170224170224172225171226169228169228169227170227171227171226172228172229169231168231168231169228169228172229170229171232169233168232168231168231169231171232170231170233171239168238170236169235170235172237172238172239171239168239168238170236170236172238172239172239171240169241168239168238171239172239172239172240170242169242169241168239171239172239172240170242169242168242169242169241171240172240170242170242169247168247168246168245169245170245170247170247169251168251168250168249169249170249171251170251000000000000000000000000169253170253170255170255000000000000000000000000000000170255000000000000000000170346169344170344171344000000000000000000000000170355000000000000000000000000000000000000000000000000000000170356000000000000000000000000171372170372169370000000000000000000000000000000171378168378168377170377000000000000000000000000171379170380168378168377171377000000000000171379171382170382170382170380171379171379172380171381171388170388169386170386170385171387171388171389171392170391169391170389171390171390172391172391171394170393169393170391171392172391172392172394171396170395170395170393171394172394172395171396))
 (.node 1 (.leaf 169399169399169398170398170397172398172398171399171401170402169400169399169399171399170400171401171405170405170405170403171404171402171403171404169410169410170409170408170408171408171409172410169412169411169410170409170409171409172410171411171412169412169411169410169410172410171411171412171413169413169412169411169412171411171412172414169416168415168415169413171413172414172414172415169416168417168415168415170414172414172415172416169417168418168417168415169416172415172416172417169419168419168418168417169416172416172417171418169420168420168419168418169417172417171418170420170423168423168421168420169420170420170420170423169423168423168423168421169420170420170423170423169426168426168425168423169424170424170424170426171432170432169432170430171430170429171432172432171435169434170433170433000000170433172434172435170437169437169434170433170433172434172435171437170438169438169437169434171435172435171437170437171443170444170443168441171441172442172442171444170449169449169448170446171445172446172446171449170450170450169449169448171446172446171449172449170453170453170450170450171450172451172451171453171454170454170453170450171450172451171453172454000000000000000000170455170454000000000000000000000000168550000000000000000000000000000000000000171552000000168550000000000000000000000000000000169553000000000000168550000000000000000000172552169555000000000000000000171552000000172552170554000000000000000000000000169555170554171556000000000000169560000000000000000000000000000000000000171562170562169560000000000000000000000000172561)
 (.leaf 171564168564169564170562171562172561171564172564169565169566168564169564169563171564172564171564000000000000169566168564171564172564171564000000000000000000000000169566169565171564000000000000169591169590000000000000000000170589170589170591169593169594169591169590169591170591172593172594169594169595169594169591171592172593172594171595169596168596169595169594169593172594171595000000171596169597168596169595169594171595000000000000000000000000169597168596169596000000000000000000000000000000000000169597171596000000000000000000171210170210169208170206170208171207172209171210170210169210170210169208170208172209171210171210172213170211171210169210170210171210172212173213171214171214170211171210171210172212173213171214171215171214171214170211172213173213171214171214171218169218170217170216170216171215172217171218171224170224170223169222170222172222172223172224170224169224170224170223172223172223172224171224172229169228171227171227171226172226173227173229170229169230169228171227172228173227173229173229171232169231169230169228172229173229173229172232170231169233169231169230170229173229172232172233170235169234169233169233170233173234171233173236172237170235169234169233170234171233173236173237172238170236170235169234170235173236173237173238172239171239170236170235172237173237173238173238172239171239171239170236172238173238173238173239170242169242170242171240172240173239172242171242170244169245169243169242170242171242171242171244170247169247169246169245170245171245172245171247170249169249169248169247170247171247171249171250))))
 (.node 4 (.node 2 (.node 1 (.leaf 170255169254169253169252170252172251171252171255170255000000169254169253170253171252171255172256000000000000000000000000000000171256000000000000000000171372170370000000000000000000000000000000172380170380171379171378000000000000172379173380172385170384171383170382171382172382172383172384171387170385170384171383172384172383172384173386171388170386170385170384172385172384173386173388172392171393171392171390172391172391173392173392171397171397171396170395172395172395172396172397172398169399170397171397172397173397173398172398170400169400169399169399172398172398172399173401172410169410170409170408171408172408173410172410172414170414171413171412171412172412172413172414172415169416170414171413172414172413172414172415172416169416169416170414172414172414172415172416172417169417169416169416172415172415172416172417170420169420169419169417172417172417172418172419170420169420169420169419171418172418172419171421170423169423170423169420170420171421171423171423170424169425169424169423170423171423172423172424170426169426169425169424170424172423172424171426170428170429169427169426170426171426171426172429170429000000170429169427170427171426172429171429172432171432170432171430170429171430172432173432172434170433000000171432172432173432173434173434172435171435170433000000170433173434173434172434170437170438170437171435172435172434173437172438172440170440170439170438170437172438172439172440171441170441170440170439170438172439172440173440172442171441170441170440172440172440173440172442171444171443170443171441172442172442172443171444)
 (.leaf 171449170449171446171445172446173445172446172449172449170450170449171446172446172446172449173450171453170453171450171450172451172451173451171453172454171454170453171450172451173451171453172454000000000000170454171454172454000000000000000000000000000000000000000000000000000000000000000000000000000000000000000000000000000000000000000000000000171552000000000000000000000000000000000000170554169555169553171552000000000000000000173554171556000000169555169553172552000000173554173555000000000000000000169555170554173554173555171556172561171562000000000000000000000000000000000000172564171564169563171562172561000000172564173564000000000000169565171564172564173564173565000000000000000000000000169565171564173565000000000000000000000000000000000000000000000000000000000000170588000000000000000000000000000000000000171588170589000000000000000000170588171588172588172589170591169591000000000000170589172588172589172592172593171592169591000000170589172589172592173592171595169594169593171592172593173592172594172595000000169596169594169593172594172594172595000000000000000000000000171596000000000000000000000000000000000000000000000000000000000000000000000000000000000000000000000000000000000000000000000000171207170208171205000000000000000000173205172207171210171210170208170208171207172207172209172210173213172213171210170210171210173209174211173213171215170216171215171214171214174213173215172215171218171218171217170216171215172215173217173218172220171220171219171218171218173218173219172220173227172228171226172225172225173225172226173227))
 (.node 1 (.leaf 172232171232170229172229173229173228174229173230172233170231171232170229173229174229173230172232173236170235170234170233173234173234173235173236173237172237170235170234171233173235173236173237173238172238172237170235173236173236173237173238171247170247170247170245171245172244173245173246171249170248170247170247172245173245173246173249171250170249170248170247171247173246173249172250171250171251170249170248171249173249172250172250171255170255170253170252172251173251172252173255172256170255170255170253171252172252173255172255000000000000000000000000171256172256000000000000000000000000000000000000000000000000000000000000000000000000000000000000000000000000000000000000173388171388171387172385172384173384173385174387173388171389171388171387173386173385174387173389173389171390171389171388173388174387173389174390172391172391171390171389173388173389174390174390173392172391172391171390173389174390174390174392172395172395172394172392173392174392173394174395173401170400171399172398172398173398174400174401173402171402171401170400173401174401173401173402171404171404171403171402173402173402174403173406173410171409171408171407172407174408172408173409171421170420170420171418172418173418173419173420171423170423170420170420172419173419173420173423171423170423170423170420171421173420173423172423171426170426170424170424172423172424173424173425171426170427170426170424172424173424173425173426172429170428170427170426171426173425173426174428171429170429170428170427171426173426174428172429172432171432170429170429171429172429173431173432)
 (.leaf 173432172432171432170429171430173431173432000000173434172434170433172432173432000000173434000000172438170437171437172435172434173434173437174437172439170438170437171437173437173437174437174439172443172442172442171441173440174441174442174442173445172446172444172444173444174444174444173445172449171449172446172446173445173445174448174448173450172449171449172446172446174448174448174450173451172451172451172449173450174450174450174451172454172454171453172451173451174451174452000000000000172454172454171453171453174452000000000000173554170554172552000000000000000000000000000000173555171556170554172552000000000000000000174555171556000000171556170554173554000000174555172556000000000000000000000000000000172557000000000000172564171564172561000000000000000000000000174563173564172564171564172561000000000000174563173565000000000000171564172564173564173565173566000000000000000000000000171564173565173566000000000000000000000000000000000000000000000000000000000000000000000000000000000000000000000000000000173586171588170588000000000000000000000000173586172588172592170591170589170589172588172588173589174591173592172593170591170589172589173589174591173593000000000000000000000000000000000000000000000000000000000000000000000000000000000000000000000000000000000000000000000000000000000000000000000000000000000000000000000000000000000000000000000000172207171207172205000000000000000000173207174206172210171210172209171207172207174206174209173209174211172212171210171210172210173209175210175212173213173213172212171210173209175210175212175213)))
 (.node 2 (.node 1 (.leaf 174213171214173213172212174211175212175213174214172215171215171214171214174213174214174215174216173218171218172217171215172215174216174217174218173222172222172221172220172220173219174221174222173223172223172222172221172220174221174222173222172226172226172225171224172224173225175225175227172232172233172232173229174229174229174230173232173235171233173234172233172232173232174234174235173249171249171247172245173245174245174246173248172251171251171250171250172250173249173251173251173255171255171252172251173251173252173254174255000000000000171256172256172255173255173257174258000000000000000000000000000000000000000000000000000000000000000000000000000000000000000000000000172383172382172381173380173380175380175381175383174385172383172382172381173381175381175383175383173389173388173388173386173385174387174388175388174392173392172391173389174390175389175390174392174392173392173392172391174390175390174392175392174395172395172394173392174392175392174394175395174395172397172396172395174395175395175396175396174396173397172397172396174395175396175396174396174400172399172398173398173397175398175399175400174401173401172399172398173398175399175400175401174403172403173402172401173401174401173402174403173406171404172403173402173402173402174403175405173407172405171404172403174403174403175405175406172417172417172416172415172415173415174416174417173423171423171421172419173419173419174420173423172423171423171423171421173420174420173423174422174428172429171426171426173425174425174426175428172429171429172429171426173426174426175428174430)
 (.leaf 173431171430171429172429174428175428174430173431173432172432171430171429172429174430173431173432000000173434173434173432000000173432173432173434173437173437172434173434000000173434173434175437174437172438173437172434173434173434175437175438174439172440172439172438174437175438174439175439174441173440172440172439174439174439175439174441174442172443172442173440174441174441175441175442173444171444172443172442174442175441175442175444174444173444171444172443174442175442175444175444174448172446173445173444174444175444175446175447174448172449172446173445173445175446175447175449174450173450172449172446174448175447175449175449174450172451173450172449174448175449175449175450000000172454171453173451174451174450000000000000000000000000172454171453174452000000000000000000172557000000171556173555174555175555174555174558000000000000000000171556172556174555174558174559000000000000000000000000172557174558174559173559174563172564000000000000000000000000000000000000173565173564172564000000000000000000000000174565000000000000000000000000000000000000000000000000000000000000000000000000000000000000000000000000172588171588000000000000000000000000175586174587172588172588171588000000173586175586174587174588174591172592172589172588172588174588175590174592173593173592172592172589173589175590174592174593000000000000000000000000000000000000000000000000000000000000000000000000000000000000000000000000174209172209172207173205173207176205174206174209173209172210172209172207174206174206174209176209175212174211173209172210173209176209176210175212))
 (.node 1 (.leaf 174214174213173213174211175212175212175213174214175225173225172224172224175225174224176226175225175227172226173225172224173225176226175225175226173229173228173227172226175227175226175227174229173232172232173230174229174229174229175230175231174234173234172232173230174230175230175231175234174235173235173234172232173232175231175234176235173240172240174238174238175238176237174240174240173242172242172241172240173240174240175242175243173243172243172242172241173241175242175243174243173248173249173246173245174245174245175246176248173249172250173249173246174246175246176248176249173251172250172250173249173248176248176249176250173251172251172250172250173249176249176250174251173254172252173251172251173251174251176252175254174255173255172252173251173252176252175254174255173255172255173255172252173254175254174255176255174258000000172256172255173255176255175257175258000000000000000000172256173257175257175258000000175380173380173379000000000000000000175379175380175381173381173380173379174379175379175380175381175383172383173381173380175380175380175381175382175383174385172383173381175381175381175382175383174386173384174385172383175383175382175383175386175390174390174390173389175388175389175390176390175392174392174392174390175390176390175392176392175395174395173394174392175392176392176393176394175398173397174396174395175396176396176397176397175399173398173397174396174396176397176397176399175400174400173398173397175398176397176399175399173402173402173401174401175401175400176401175402175405173406174403173402173402175402175403175404)
 (.leaf 175406173407173406174403174403175403175404175405173411172412173410173409174409175409176411176412173412173412172412173410174410176411176412176413173413173413173412172412173411176412176413176414175414173414173413173412173412176413176414175414173415172415173414173413173413176414175414175415173419173418172417173416174416175416176417176419173419173419173418172417174417176417176419174420173423173423173420173419173419174420176420174422175424172424172423173423173423174422175422175423173424173424172424172423174422175422175423175424175428174428173426173425174425174425176427175427173431173431172429174428175428175427175428174430173432000000173432173431173431174430174432174432173434000000173434000000173432174432174434174435175438174437173437173434173434176436176437176437175439174439174439174437175438176437176438176439175441174442174441174439175439176439176439176442175444174444173444174442175442176443176443176444175446173445174444174444175444176444176444176446175447174448173445174444175444176444176446176447175449174448174448173445175446176446176447176448175450174450174450174448175449176448176449175449000000000000000000174452000000000000000000000000000000000000000000000000000000000000000000000000000000000000000000000000000000000000000000000000175555174555000000000000000000000000000000000000174558172557172556174555175555000000000000174558174559000000172557172556174555000000174558175559000000174563000000000000000000000000000000000000175565173566173565174563000000000000000000000000000000000000000000173566175565000000175567174567)))))
 (.node 8 (.node 4 (.node 2 (.node 1 (.leaf 175582175583000000000000000000000000000000175582175583175584000000000000000000000000000000175583175584175585175586173586000000000000000000175584175585174587175590173589172588172588174587175587175588175591174592174591173589172588174588175588175591175592000000000000000000000000000000000000000000000000000000000000000000000000000000000000000000000000174204000000000000000000000000000000175202176203174205000000000000000000000000175202176203176204176205173207000000000000174204176203176204176205174206174206173207000000174205176204176205175208174209174209174206173207176205176205175208177208176210175210173209174209174209177208177210177210175213175213175212175210176210177210176212176213175216174216174215174214174214177214177215177215175222174222174221173219174220176220176221177222176226173225175225174224174223177223177224177225174229173229174227175227175226175226175227175229175234174234173232174230175230176230177233177233176235174235174234173232175231177233177233177235176237174237174236174235176235177235177235177236176237175238174237174236174236177235177236177237176237175238175238174237176237177236177237177238174240173240173240175238176237177238177238175240175243173242173241173240174240175240176242175243174245174245173244173244174244175244177245177246176248173248174246174245174245177246177247177248176249173249173248174246175246177247177248177250176250173251173249173248176248177248177250176251174251173251173251173249176249177250176251177252176252173252173251173251176250176251177252177252)
 (.leaf 175254173254173252173251174251177252177252177253174255174255173254173252176252177252177253177255175257173257173255174255174255177255177256177256175258174258173257173255176255177256177256177256000000000000000000000000000000175258000000000000176386174387174386175383175383175384177386177386175389175388174388174387176386177386177387177387176392175392174392175390176390176391176392177392176394175395174394175392176392177392177393177394175396175396175395174394176393177393177394177394176397175398174396175396176396177395177396177397176408174407174406175406175405176405177407176407174408174408174407174406175406177407176407177408176411174410174409174408174408177408177409176410176412173411174410174409175409177409176410176411176413173412173411174410176411176410176411176412176414173413173412173411176412176411176412176413176417174417174416173415175415176415177416176417176419173419174417174416175416177416176417177419174420173419173419174417176417176417177419176419176420174420173419173419176419177419176419176422174422173423174420173419174420176419176422175422174425174425173424175424175423175424176424176425176427174426174425173424175424176424176425177427174430173431174430175428175427176427176428175430174432173432173432173431174430175430175432175432174435173434173432173432174432175432176432176435176436173434173434173432174434176432176435176436176437175437173434173434174435176435176436176437176437175438175437173434176436176436176437177437176442175441174441175439176439177440177440177441176444175444175444175442176443177442177443177445))
 (.node 1 (.leaf 176446175446175444175444176444177445176444177446176449175449175449175447176447177447177447176448000000000000174450175450175449000000000000000000000000000000000000000000000000000000000000000000174558174558174555175555000000000000000000000000175559174559174558174555000000000000000000177557174560173559174559174558174558000000177557176560000000000000000000000000000000175561175561000000000000174565000000000000000000175561000000000000000000175565174565000000000000000000000000000000174567000000174567175565000000000000000000177568175591175590174588174587175587176587176590175591175595174595174594174593174592176593176594175594000000000000000000000000000000000000000000000000000000000000000000000000000000000000000000000000000000000000000000000000000000000000000000000000000000000000000000000000000000000000000000000000000000000000000000000000000000000000000000000000175208174206176205174205176204176205177207178208177208174209174206176205176205177207178208177209177210176209174209174206175208178208177209178209176213175213175212176210177210178210178211178212177215175216176215174214177214177214178215177216176218175218175217175216177215177216177217178218175219175219175218175217175215177217178218177219176221175221174220175219175219177219177220178221177223174223175223175222177222177222177223177224177225176226174224174223177223177224178225178225177226175225176226174224177224178225178225178226177233175231175230174229176229178231178231178232177233175234175231175230176230178231178232177234177235176235175234175231177233178232177234178234)
 (.leaf 177235174236176235175234177233177234178234178235177237176237176237174236177235178235178236178237177238174240176237176237177237178237178237178238175240174240174240176237177238178237178238177239176242175242174240174240177238178238177239178240175243175243175242174240175240177239178240176242175244174244174243175243175243176242178243177245177246174245174244174244175244177245178246178246177247175246174245174244177245178246178246178247177248176248175246174245177246178246178247178248177255174255175254176252177252177253178253177255177256176255174255175254177253178253177255178256177256175258175257176255177256178256178256176258175258000000175258175257177256178256176258177259000000000000000000000000175258177259000000000000000000000000000000000000000000000000000000000000175384175383175382175381176381176382178383178384177386175386175383175382175383178383178384178385177386176386175386175383175384178384178385177385175389175390175389176387177387177386177387178390176391176390175390175389177387177387178390178390177395176396175396176394177394178394178395178395177409175409174408176408176407177407177408177409177416175416175415175414176414176414177415177416177419176419176417175416177416177416177417177418175424175423175422174422175422177421176424176424177427176427174425175424176424176424177425177426175430174430175428175427176427176428176430176430176435174435174434174432175432176432176434176434177441176442176439176439177440178440177441178442177442176443176442176439177440177441178442178443177446176446176444176444177445177445178445178446)))
 (.node 2 (.node 1 (.leaf 175449176449176448000000000000000000000000174558000000000000000000000000000000000000177557175559174558000000000000000000000000177557176560174560175559174558000000000000177557176560175560174560174560175559177557177557176560177561175561000000000000174560175560177561176562176562000000000000000000000000175561176562177564000000000000175567000000000000000000000000000000000000177568174567175567000000000000000000000000000000000000000000174567175567000000000000000000000000000000000000000000174567177568000000000000000000000000000000000000000000000000000000000000177578000000000000000000000000000000000000177578176580175583175582000000000000000000176581176581177582175584175583175582000000000000176581177582177583175584175584175583175582175583177582177583178585175585175585175584175583175584177583178585178585176590175588175587174587176586178586178588177590175591175591175588175587176587178588177590178590176593174592175592175591175591178590178591177593176594175594174592175592175592178591177593178593000000000000000000175595175594176594178596176596000000000000000000000000000000000000000000000000000000000000000000000000000000000000000000000000000000000000000000000000000000000000000000000000000000000000000000000000000000000000000000000000000000000000000000000000000000000000000000177201176205176204176203175202176202177203178203178206177207176205176204176203177203178203178206179207178208175208176205176204176205178206179207178208178212176213176212177210178210179211178212179213177214177214176213176212178211178212179213179213)
 (.leaf 178215177215177214176213178212179213179213179214177223176223177222176221178221178221179222178223176228175229175227175226176227179227178227179229178231176229175229175227177227178227179229179230178231176230176229175229176228179229179230179231178232177233176230176229178231179230179231179233177234177233177233176230178231179231179233179233178240176242175240177238178238178238179239178240176242175243176242175240177239179239178240179243178243176244175243176242178240178240179243179243177245175244176244175243176242179243179243179244178246177245175244176244178243179243179244179246178251176251177250177248178248179248179249179250177253177252177252176251178251179250179251178251178256177256177255177253178253179253179255179256177259175258177256177256178256178257177258178259178381176380176379000000177378177379179380179381176382176381176380176379177379179380179381179382178383175383176381176380178381179381179382179382178384175384175383176381176382179382179382179384178385177386175384175383178383179382179384179385178390175389177387177387177386178386178387178390178390176391175389177387177387178387178390179391178391176392176391175389178390178390179391179392177393177392176392176391178390179391179392179392176402176402177401176400177400178400178401178402176406177407176405175405176404177405177405177407178410176410177409177408177408178408178409178410176424176424175424177423176424177422177423177425176430176428176427177427177426177427178427179429176430175430176428176427176428178427179429178429176431175432175430176428176430179429178429177431))
 (.node 1 (.leaf 176434176432175432175432176431177431000000177434176434176435176432175432176432000000177434178435177437176437176436176435176434178435178436177437178445176444177445177443178443179444179445179445000000176448177447177447178446000000000000000000000000000000176448177447000000000000000000000000000000000000000000000000000000000000000000000000000000000000000000000000000000000000000000000000177561175560176560177557177557000000177558177561176562175561175560176560176560177558177561178562177564000000175561175561176562178562178563178564000000000000000000175561176562178563178564177564000000000000000000000000000000177564000000000000000000177568000000000000000000000000000000000000000000000000177568000000000000000000000000000000000000000000000000000000000000000000000000000000176580000000000000000000000000177578179579179581176581000000000000000000177578179579179581178582176581000000000000000000176580179581178582178583178585175584175584175583177582179583179583178584178585175585175584175584177583179583178584178585178586176586175585175584178585178584178585178586178588176587176586175585178585178585178586178589177590176590176587176586178586178586178589178590178590175591176590176587178588178589178590179590177593176593175592175591178590179590179592179593178593176594176593175592178591179592179593179593178596176596175594176594178593179593178595000000176596000000176596175594176594178595000000000000000000000000000000176596178596000000000000000000000000000000000000000000176596000000000000000000000000000000000000000000000000000000000000177602)
 (.leaf 179199177202000000000000000000000000179199178200179201177203176202000000000000177201178200179201178203178206176205177203176202177203178203179205180206179207177207176205177203178203179205180206179207178209177209178208177207179207179207179208180209179214178215177214178212179213179213180214179215179216177216178215177214179213180214179215180215179217178218177217177216179216180215179217180218177218177219178218177217179217179217180218180219178221178221177220177219177218180219179220179221178224177224177223177222179222179222179223179224179229176228177227176227179227180228180228180229179230178231176228177227178227180228180229180230179231178231178231176228179229180229180230180231179234178234177234178232179233180233180233180234179239177239178238178237178237179237179238180239179243176242178240177239179239180239180241180243179243178243176242178240178240180241180243180243179246178246177245178243179243180243180244180246179246178246178246177245179244180244180246180246179250178251178250178248179248179247180249180250))))
 (.node 4 (.node 2 (.node 1 (.leaf 179253178253177253178251179251180252180252180254179256178256177255178253179253180254180254180255178257178256178256177255179255180254180255180257000000000000177259176258177258180257179259000000177379177378000000000000000000000000000000179378179380177379177378000000000000000000179378179379179381178381177379177378177379179378179379180380179382178383176382178381179381180380180381179382178390178390177387177386178386178386179389179390179391178390178390177387178387179389179390179391179393178393177393178391179392179392180392180393177398177398178397178396178396179396179397179398177399177399177398178397178397179397179398179399177404177403176402177401178401178401179402179403177405176404177403176402178402179402179403179404177407176406176406176404177405179404178405179408177407177407176406176406177405178405179408178408177414177413177412177411178411178411178412179413177422177421176421177421177420180420179420179423177422176424177421176421177421179420179423180424177423176424176424177421177422179423180424180425177425176424176424176424177422180424180425179426177425177425176424176424177423180425179426178426179429176430176428177426177427179426180427179428177431176431176430176430179429179428179429179432000000176432176431176430178429179429179432178432178435176434176434176432000000178432178434178434178439178439177438177437177437180437180438179439179439178440178439177438177438180438179439179440179445178445177445178443179444179444180445180445000000000000178446178446179445000000000000000000000000000000000000000000000000000000000000000000)
 (.leaf 177558176560177557000000000000000000000000180559177561177561176560177557000000000000180559179561178562176562177561176560177558180559179561179562178563176562176562177561177561179561179562179563000000000000000000000000177564179565178566179567000000000000000000000000000000179567000000000000000000000000000000000000000000000000000000000000000000000000000000000000000000000000000000000000177578000000000000000000000000000000000000000000179579177578000000000000000000000000000000179578179581176580177578000000177578000000179578180580178582176581176580177578179579179578180580180580178583176581176581176580179581180580180580179581178589178588178586178585178585178586180587180588179593178593177593178591179592180591180593180593000000178596176594178593179593180593180594000000000000000000000000176596000000000000000000000000000000000000000000000000000000000000000000000000177602000000000000000000000000000000000000000000179603000000000000000000000000000000000000000000178605000000000000000000177602000000000000000000000000000000000000000000179603000000000000000000000000000000000000000000000000000000000000000000000000000000000000000000000000000000000000000000000000000000000000000000000000000000000000000000000000000000000000000000000000000000000000000000000000000000000000000000000000000000000000000000000000000000000000000000000000000000000000000000000000000000000000000000000000000000000000000000000000000000000000000000000000000000000000000000000000000000000000000000000000000000000000000000))
 (.node 1 (.leaf 178200177201000000000000000000000000179201181201179205178203177203177202179201179201179202180205180206178206178203177203178203179202180205181206179208178208179207178206180206181206180207180208180211179211179210178209180209181209180210181211180214179213179213178212180211180212180213181214179220178220177218179217180218181218180219181219179221178221178220177218180219180219181219181220180228179227178225179225180225180226180227180228180229179229178227179227180228180228180229180230180233179233179233179231180231180232181233181234180236179236179236179234180234181234181236181236180241178240179239178238179238181239181240181241180243179243178240179239180239181240181241181242180243179243179243178240180241181241181242181244180246179246179246179244180244181245181246181246180254179253178251179251180252180252181253180254180255179256179255179253180254180254181254181254179259178259177258178257180257180257180258179259000000000000178259177258180257180258179259000000000000000000000000000000000000000000000000000000000000000000000000000000000000000000000000000000000000000000000000000000000000000000000000000000180384179384179382179382180381180381180382180383178386178386178385179385179384180384180387181387179389178387178386178385178385180387181387179389179390178390178387178386178386181387179389179390178401178401178400177399179399180399180400180401178405177405177405177404179403179403179404181405179408177407177405177405179404179404181405180408178408177407177407177405178405181405180408179408178410178409178408177407178408179408179408179410)
 (.leaf 178412178412178411178410179410180410179411180412178415178414177414178412178412180412180413179415178418178417177417177416178415179416180416180419178419178420178417177417178416180416180419179419179426177425177423177422180424180424180425180426178426177425177425177423180425180425180426179426180427178427177427177425178426179426180426180427179432177431178429179429179428180428180429179432178432000000177431178429179429180429179432181432178434178435177434000000178432181432181434181435178435178436178435177434178434181434181435180436180437177437178436178435178434181435180436180437180438177438177437178436178435180436180437180438179439178439177438177437180437180437180438180439179440179439178439177438180438180438180439181439000000000000179445179445180445000000000000000000180559177558000000000000000000000000000000000000179561177561177558000000000000000000000000180559179562178562177561177558180559000000180559181561000000000000000000000000178566180566180567000000000000177578000000000000000000000000000000000000180580178582179581179579179578180578180579180580178585178584179583179583179582179582180583180584178586178585178584179583179583180583180584180585180587178586178585178584178585180584180585180588180588178589178586178585178586180585180588181588179591179590178590178589180588181588181589181590000000000000178595179593180593181594000000000000000000000000000000178595180594000000000000000000000000000000000000000000000000000000000000000000000000000000000000000000000000000000000000000000000000177602000000000000000000000000000000000000)))
 (.node 2 (.node 1 (.leaf 179603177602000000000000000000000000000000000000000000178605179603000000000000000000000000000000000000000000178605000000000000000000000000000000000000000000000000000000000000000000000000000000000000000000000000000000000000000000000000000000000000000000000000000000000000000000000000000000000000000000000000000000000000000000000000000000000000000000000000000000000000000000000000000000000000000000000000000000000000000000000000000000000000000000000000000000000000000000000000000000000000000000000000000000000000000000000000000000000000000000000000000000000000000000000000000000000000000000000000000000000000000000000000000000000000000000000000000000000000000000000000000000000000000000000000000000000000000000000000179201179199000000000000000000000000181198182200181201178200179199000000000000181198182200182200179201179201178200179199179201182200182200180202180205179205178203179201179201180202181204181205181206180206179205178203179202181204181205181206181218180218179217180215181215181216182217182217180219180219180218179217181216182217182217182219180222179222179221179220181219182220182220182221179223179223179222179221181220182220182221180223181239179238179237180237181237182236181237181238181241180241180239179238181239181238182240181242181244180243180243180241181241181242182242182243181246180246180246180244181245182245181246182246181250180249179247180247181247182247181247182250181253180252180252180250181251182250182251181253181254180254180254180252181253181253182253181255180258180257180257180255181254182256181257181258)
 (.leaf 180260181262000000000000000000000000000000000000181262000000000000000000000000000000000000000000000000000000000000179379179378000000000000000000000000181377182378181380179379179378000000000000181377182378181379180387178385179384180384180383180384180384181385181387178386178385179384180384180384181385181386179390179390179389178386181387181386181387180390180391179391179390179389179389181387180390180391179404179404179403179402180402181402180403181404181405178405179404179403179403180403181404181405180408179408178405179404179404181404181405181408179408178408179408178405181405181405181408180408179410178410179408178408179408180408181408180410179411178411179410178410179410180410181410181411179415178415179413178412180412182412182414181414179416178415178415179413180413182414181414181415180419178418178416178415179416181415181416180419179419178419178418178416180416181416180419180419179422179423179420180420180419181421181422181423180424180424179423179420179421181422181423181424180425180425180424179423179422181423181424181425179432179432179429179428180428181428182430182430181432178432179432179429180429182430182430000000181434178434178432179432179432182430000000181434181435178434178434178432181432000000181434181435180436178435178434178434181434181434181435180436180437180437178435178434181435181435180436180437180442179442179441179440181439182439181441181442000000180445180445179444181444000000000000000000000000000000000000000000000000000000000000000000181561179562179561180559000000000000000000181562))
 (.node 1 (.leaf 179562179563179562179561180559000000181562181563180564179564179563179562181561181562181563180564180565179565179564179563179562181563180564180564000000000000000000000000000000000000000000000000000000000000000000000000000000000000000000000000179582179581180580180580180579181579182581181583179582179582179581180580180580182581181583180583180588180587178586178585180584182585182587182588181590179591179588180588181588181589182589182589180592180591179591179588181589182589182589180592000000000000000000000000000000000000000000000000000000000000000000000000000000000000000000000000000000000000000000000000000000000000000000000000000000000000000000000000000000000000000000000000000000000000000000000000000000000000000000000000000000000000000000000000000000000000000000000000000000000000000000000000000000000000000000000000000000000000000000000000000000000000181623182625000000000000000000000000000000181623182625000000000000000000000000000000000000000000000000000000000000000000000000000000000000000000000000000000000000000000000000000000000000000000000000000000000000000000000000000000000000000000000000000000182200179201000000000000000000000000182200183200182200181201179201000000181198182200183200183201181204179202179201181201182200183201182203183204181205180205179202179201180202182203183204181205182212180212181211180210182210183209183210183212182214181214180213180212182212183212183213183213181215180215181214180213182213183213183213183214182219180219181218181216182217182217182218182219180223179223180222181220182220183221183221183222)
 (.leaf 181224180224179223180222182221183221183222181224181225180225180224179223180223183222181224182225181228180228180227180226180226182226182227181228181233181233180232180231180230182231181232182233182236181236181236181234182234182235182236183236182245181245181244181242182242183242183244182245182250181250180247181247182247183248182247183249182250181251181250180247181247182247183249183250182253180254181253180252182251183251183252182254181258180258180257181254182256182256182257181257180260000000000000179259180258181258183259183260181262000000000000000000180259183259183260183261000000000000000000000000180260183260183261000000000000000000000000000000000000000000000000181264182378179379000000000000000000000000182377181379180383180382180381180380181380181381181381181383180390179390179389181387181386182386182387182390180391180391179390179389181387182387182390181391182392181392180391179390180390182390181391182392180397180396181395181395182394183396181395183396180398180397180396181395181395181395183396182397180398180398180397180396180397183396182397181399181408180408181405179404181404181405181405182406180408179408180408181405181405181405182406181409182412180412179411180410181410181411182411182412182414180413180412179411181411182411182412182413181421180419179419180419180419181418182418182421181422179421180419179419180419182418182421182422182430180429180428180427181427182427182428183429182430179432180429180428181428182428183429182432000000181432179432180429182430183429182432183432181435181435181434181432000000183432182434183435)))))))))
 (.node 128 (.node 64 (.node 32 (.node 16 (.node 8 (.node 4 (.node 2 (.node 1 (.leaf 181438180438180437180436180436183436183437182438181439180439180438180437180437183437182438182439181442180442180441181439182439182440183440183442000000000000000000000000000000000000000000000000181562181561180559000000000000000000000000000000181566180566180565180564180564182564183565183565000000180567180566180565180564183565183565181566000000000000000000180567000000181566182568000000000000000000000000000000000000182568000000000000000000000000000000000000000000000000000000000000182581180580180579180578181578000000182579183580181583179582180580180579181579182579183580182581180583179582179582180580182581183580182581183584182585180584180583179582180583183584183585183586182587180585180584180583180583183585183586183586182588180588180585180584182585183586183586183587181589181588180588180585182587183586183587183588180592180593180592181590182589182589182590183592181594181594180593180592180592182590183592000000181595000000181594180593180592183592000000000000000000000000000000000000000000182598181599000000000000000000000000000000000000000000000000000000000000000000000000000000000000000000000000000000000000000000000000000000000000000000000000000000000000000000000000000000000000000000000000000000000000000000000000000000000000000000000000000000000000000000000000000000000000000000000000000000000000000000000000000000000000000000000000000000000000000000000000000000000000000000000000000000000000000000000000000000000000000000000000000000182625000000000000000000000000000000183624183625000000000000000000000000181623183624183625183626)
 (.leaf 182625183625183626181627000000000000000000000000000000181627000000000000000000000000000000000000000000000000000000000000000000000000000000000000000000000000000000000000000000000000000000000000000000000000000000000000000000000000000000000000000000000000000000000000000000000000000000000000000000000000000000000000000000000000000000000000000000000000000000000000000000000000000000000000000000000000000000000000182200181198000000000000000000000000000000183200183200182200181198000000000000000000183200184200182203180202182200182200183200184200184200182202182206181206181205181204183204183204184205184206182207181207181206181205181205184205184206183207183210181211182210181209183209183209184210184211183213182213182212181211183210184211184212183213182217182217181216181215183214183215184216183217182218182217182217181216183216184216183217182218181224181224180223182221183221183222183223183224182225181225181224180223183222183223183224183225182226180226181225181224181224183224183225183226181230180230181229181228181228183228183229184229182231180230180230181229183228183229184229183231181232180232180230180230181230184229183231183232182234181234181233180232181232183232183233183234182239181237182236182236183236183237184237183237183240181238181237182236183237184237183237184240183242182242181242182240183240183241184241183243182246181246182245182243183244184243183245184246183249182250181247182247183248183248184248184249183250182250182250181247182247184248184249184250182254182253181253182251183251184251183253183254))
 (.node 1 (.leaf 183259180259180258181258181257183258183259183260183260180260180259180258181258183259183260183261183261181262180260180259183259183260183261183262000000000000181262180260183260183261183262182262181265000000000000000000000000182262182263183264181266000000000000000000181264182263183264183265000000000000000000000000181265183264183265182267000000000000000000000000000000182268000000000000183380181379182378181377182377000000183378183379181381181380181379182378181379183378183379182381181383180383181381181380181381182381183381183382181384180384180383181381181381183381183382182384181391180391180390181387182387182388182390183391183393181393182392180391181391183391183392184392181395181395182394182393182393182393183396184396183396180397181395182394183396183396184396183396181399180398180398180397183396183396182397182399181401180401180400181399181400183399182400183401181403180403181402180401181401183401182402182404181405181405181404180403181403182404182404183405181409181408180408181408182406182407183407183410181411181410180410181408181409183410182409182411181418180419181416181415182415182415182416184418182421181421180419180419181418184418184420184420182422181422181421180419182418184420184420182421183429182430181428181427182427183427183428183429183432000000182430182430183429183429184432184432183435181435181434000000183432184432182434183435183437180437180436181435183435183435184436184437182438181438180437180436183436184436184437183438182439181439181438180437183437184437183438183439182443181443181442181441183440184440184442000000)
 (.leaf 181443181442183442184442000000000000000000000000000000000000000000000000000000000000000000000000000000000000000000000000000000000000000000181562000000000000000000000000000000000000182563181563181562000000000000000000000000182562181566000000181566180564183565183565183566182567182568000000000000181566183565183566182567184567000000181578000000000000000000000000000000000000183580182581181579181578000000000000183579184580183584180583181583182581183580184580184583184583183585180583180583181583182581184583184583184584183586182585180583180583183584184583184584184585183587182588182587182585183586184585184586184587183592180592180592182589182589184590183592000000000000181594180592180592182590183592000000000000000000181595181594180592183592000000000000000000000000000000181595181594000000000000000000000000181599000000000000000000000000000000182598183599000000000000000000000000182598182598183599182601000000000000000000000000000000182601184602000000000000000000000000000000000000184602000000000000000000000000000000000000000000000000000000000000000000000000000000000000000000000000000000000000000000000000000000000000000000000000000000000000000000000000000000000000000000000000000000000000000000000000000000000000000000000000000000000000000000000000000000000000000000000000000000000000000000000000000000000000000000000000000000000000183624181623000000000000000000000000000000183623183625182625181623000000000000000000183623184625181627000000000000182625183625184625184626184627000000000000000000000000183626184626184627000000)))
 (.node 2 (.node 1 (.leaf 181627184627000000000000000000000000000000000000000000000000000000000000000000000000000000000000000000000000000000000000000000000000000000000000000000000000000000000000000000000000000000000000000000000000000000000000000000000000000000000000000000000000000000000000000000000000000000000000000000000000000000000000000000000000000000000000000000000000000000000000000000000000000000000000000000000000000000000000183200182200000000000000000000000000000000184198184200183200182200000000000000000000184198000000183204183204182203183201184200184200184201185203184205181205183204182203182202184201185203185204183207182207182206181205184205185204185206185206184208182208182207182206184206185206185206185208184210183209183209182208184208185208185209185209183213183213183212183210184211184211184212185213182219182220182219182218182218184218185219185219183221183221182220182219182218185219185219185220183222183221183221182220182219185219185220183222183232181232182231181230184229185229185230185232184240183240182239183237184237184238185238185239183241183240183240182239183237185238185239185241183248183248182247182246184246185246184247183247183258181257182257182256182255183255183257183257000000000000000000000000182267183267184269183269000000000000000000000000000000183269000000000000182384181384181383181381183381183382184382185384182385181384181384181383183382184382185384185385182386181385181384181384182384185384185385183386182390182390182387182386183386183387183389183389183396183396182393183393184392185394185394185395)
 (.leaf 184396181395183396182393182393185394185395185396182399181399182397183396183396184396183397184398182402181403181401182400182400184400183401184402182404181405181403181403182402184402183403183405182407182406181405181405182404183405183405183407183410181409181409182406182407183407183407184410182409182409181409181409183407183407184410183410182414182414182413182412182413184412184413184414182415182415182414182413183413184413184414183416184418181418181417182415182415183416185417184417184420182418181418181417182416185417184417183419182421182422182421182418184420183419185421183421183425182425182424182423182422183422184424183425182426181426181426181426182425183425184425184426184432182432183429182428183428184428184429184432184432183432182432183429183429184429184432000000183435183435182434183432184432000000184434184435184436183436183435182434182434184434184435184436000000182443183442183440184440185441000000000000000000000000000000182443000000000000000000000000000000000000000000000000000000000000000000000000000000000000000000000000000000000000000000000000182562182563000000000000000000000000000000000000182563182564182563000000000000000000000000184564183565183565182564182563182562000000184564184565183566183565183565182564182563184564184565183566183569000000182568181566182567185567184568184569000000000000000000182568184567184568184569000000000000000000000000000000000000000000000000000000000000000000000000000000000000000000000000000000000000000000000000000000000000000000000000000000184583182581183580182579183579000000185580185581))
 (.node 1 (.leaf 184583183584182581183580184580185580185581185582184584183585183584182581184583185581185582185584183592182590182589183589184589185589185589184590000000183592182590182589184590185589184590000000000000000000000000183592000000000000000000000000182598182598000000000000000000000000000000184598184602000000000000181599183599183600185601184603000000000000000000000000182601185601184603000000000000000000000000000000184602184603000000000000000000000000000000000000000000000000000000000000000000000000000000000000000000000000000000000000000000000000000000000000000000000000000000000000000000000000000000000000000000000000000000000000000000000000000000000000000000000000000000000000000000000000000000000000000000000000000000000000000000000000000000000000000000000000000000000000000000000000000000000000000000000000000000000000000000000000000000000000000000000000000000000000000000000000000000000000000000000000000000000000000000000000000000000000000000000000000000000000000000000000000000000000000000000000000000000000000000000000181627183626184626000000000000000000000000000000000000181627184627000000000000000000000000000000000000000000000000000000000000000000000000000000000000000000000000000000000000000000000000000000000000000000000000000000000000000000000000000000000000000000000000000000000000183634000000000000000000000000000000183635184635183637000000000000000000000000000000000000000000000000000000000000000000000000000000000000000000000000000000000000000000000000000000000000000000000000000000000000000000000000000000000000000000000000)
 (.leaf 184200183200000000000000000000000000000000185203183204182202184200184200185202185203186203185204184205183204182202184201185203186203186205185206184206184205183204185203186203186205186206185209183209184208183207185206186207186208186208184211184211184210183209185209186208186209186210184215183215184214183213185213186213186213185215185220183221182219182218185219185219185220185221183222183222183221182219185219185220185221185222183223183223183222183221185220185221185222185223183224183224183223183222183222185222185223186224183225183225183224183223183223185223186224185225184226183226183225183224183224186224185225185226184227183227183226183225183225185225185226184226185232183232183231184229185229185230186230186231183233183233183232183231185230186230186231186232183234183234183233183232185232186231186232185234183234183235183234183233183233186232185234184235184236183236183235183234183234185234184235184236185241183241184240183237185238185239186240186241183255182255183254183253183252184252185254184254183257183258183257182255183255184255185255184257183260183261183260183259183258184258185258184261183261183262183261183260183259185258184261184262183266183265183264182263183264184264185266184267183267182267183265183264183265185266184267184267183269000000182268182267183267184267184269184270000000000000000000000000000000000000000000000000185379183379183378000000000000000000000000000000185381182381183379183378000000000000000000185380183382183381182381183379185379000000185380185381))))
 (.node 4 (.node 2 (.node 1 (.leaf 185385182385182384183382184382184383186383186385183386182386182385182384185384186383186385186385183387183386182386182385185385186385186385184387183389182390182388183386183387184387186388185390183390183391182390182388183389186388185390185391184392183392183391182390183389185390185391185392185392184392183392183391183390185391185392186392185394182393184392184392185392186392186392186393185395183396182393184392185394186392186393185394185396184396183396182393185394186393185394185395183397182397183396184396185396185395185396184398183400183399182399182397183397184398184398185399183401183401182400183399183400185399185400184402183403182404182402183401183401184402184402184404183407183407182407183405183405184406184406184408183410182409183410183407183407184408185410184410183416182415182414183413184413185413185414185415185417182416182415182414184414185414185415185418185421184420184420184418184417186418184420185421184424183424182422182421183421184421186422184424183425183425183424182422183422186422184424184424184432184432183429183428184428185428185431184432000000184432184432183429184429185431184432186432184435183435182434184432000000186432185434184434000000000000184442184440185441000000000000000000000000000000000000000000000000000000000000000000000000182562000000000000000000000000000000000000184564182563182562000000000000000000000000186563184565183565182563182562000000000000186563185565184568184567182567183566183566185566185567186568000000000000000000000000000000184570000000000000000000000000000000000000000000000000000000000000)
 (.leaf 185581184583184580183579000000000000186581000000185582184583184583184580185580186581000000000000000000000000183592184590185589185589185592000000000000000000000000183592184590185592000000000000000000000000000000000000000000000000000000000000183600183599182598000000000000184598186599000000185601182601183599182598184598186599000000000000184603184602182601183599183600000000000000185601000000000000000000000000000000000000000000000000000000000000000000000000000000000000000000000000000000000000000000000000000000000000000000000000000000000000000000000000000000000000000000000000000000000000000000000000000000000000000000000000000000184625183623000000000000000000000000000000000000000000000000184627000000184627184627000000000000000000000000000000000000000000000000185632183635000000000000000000000000185632184633186636000000000000000000000000184635184636185636186638000000000000000000000000183637185636186638184639000000000000000000000000000000184640000000000000000000000000000000000000000000000000000000000000000000000000000000000000000000000000000000000000000000000000000000000000000000000000000000000000000000000000000000000000000000000000000000000000000000000000000000000000000000000000000000000000000000000000000000000000000000000000000000000000000000000000000000000000000000000000000000000000000000184198000000000000000000000000000000000000000000000000184198000000000000000000000000000000185202184200000000184198000000000000000000186200185203184201184200000000000000000000186200186203186207185206185206185204186205187204187205187206))
 (.node 1 (.leaf 186208185209185208185206186207187206187207187209185212184212184211185209186209187210187211187212186213185213184212184211186210187211187212187213185218184218184217184216184216186216187216187217186232183233185232185230186230186231187231186233184235183234183234183233186232186233186234187235186236183237184236183234184235187235186236186237186237184238183237184236184236186236186237186238185239185238184238183237186236186237186238186239186242184242185241185239186240186240186241186242185244184244184243184242186242186242186243185243185249184249183247184247184246185246186248186249184254183255183253183252184252185251185252185254184263183263183263183261184262185261186263186264184264183264183263183263184263186263186264185264184267183266183265183264184264185264186266185266184269184269183267183266184267185266185268185268000000000000183269184269184269185268186270185270000000000000000000000000000000185272185274186275000000000000000000000000000000186275186276185276000000000000000000000000000000185279000000000000186383185384184382183382185381185382186382187384184387183387183386185385186385187384186385186386186388183389183387183386186385186385186386187387185390183389183389183387184387186386187387187389185391183390183389183389186388187387187389185391186393185394185394185392186392187392186392186393184398183397184396185396185395186395185396186397184398184398183397184396185396185396186397186398184402183401184400183400185399186399186400186401184402184402183401184400185400186400186401187403184404183403184402183401184402186401187403187404)
 (.leaf 184405183405183403184402184402187403187404186404184406183405183405183403184404187404186404186405184406183407183405183405184405186404186405185407185410184410183407183407184406185407187408185410184410183410184410183407184408187408185410185411185421185421183419184417186418187418186420185420184424184424183422183421184421187420187422187423184424183425184424183422186422187422187423186423184425183425183425184424184424187423186423185425185431184429184428184427185427187428187429187429184432184432184429184428185428187429187429187431185434184434000000184432184432187431000000186434184434184435184434000000186432000000186434187434186437185436184436184435184434187434186436186437185439184439184438185436186437186437186438186439000000000000000000000000000000000000000000000000186563184564000000000000000000000000000000000000185565184565184564000000000000000000000000186563185566183566184565184564186563000000186563185566184569000000184569184568186568186568186569185569000000000000000000000000184569185569186571000000000000000000000000000000184570186571000000000000000000000000000000000000000000000000000000000000000000000000000000000000000000000000000000000000000000000000000000000000000000000000000000000000000000000000000000000000000000000000000000000000186584185584185582185581000000000000000000000000185592184590185589185589186589000000186589186592000000000000184590185589185589186589186592000000184598000000000000000000000000000000000000187599186599184598000000000000000000000000187599187599000000183600184598000000184598187599187599000000)))
 (.node 2 (.node 1 (.leaf 185601183600184598186599187599000000000000000000000000000000184603185601187603186604000000000000000000000000000000185602186604000000000000000000000000000000000000000000000000000000000000000000000000000000000000000000000000000000000000000000000000000000000000000000000000000000000000000000000000000000000000000000000000000000000000000000000000000000000000000000000000000000000000184627000000000000000000000000000000187626000000184627000000000000000000185625187626000000187628000000000000000000000000184627000000187628000000000000000000000000000000184627187628000000000000184633183634000000000000000000000000186634186635186636183635183634000000185632186634186635186636184636184635183635183634184633186635186636185636186638000000183637184635184636185636185636186637184639000000000000183637185636185636186637186638184640000000000000000000186638186637186638187640000000000000000000000000184639186638187640186640000000000000000000000000184640187640186640187642000000000000000000000000000000186640187642187643000000000000000000000000000000187642187643000000000000000000000000000000000000000000000000000000000000000000000000000000000000000000000000000000000000000000000000000000000000000000000000000000000000000000000000000000000000000000000000000000000000000000000000000000000000000000000000000000000000000000000000000000000000000000000000000000186203185203185202000000000000187199187202186203186204186203185203185202186200187202186203188203187213186213185212186210187211188211187212187213186214186213186213185212187212187212187213186214)
 (.leaf 187218185219185218185217187216187217187218187219185220185220185219185218187217187218187219188220185221185221185220185219187218187219188220187221186222185222185221185220185220188220187221186221185228184227184226185226185226186225187227186227186230185230184228184227185228186227186229186230186237186236184236184235187235187235187236187237185246184246185246184244185245186244187244186246186249185249185248184246185246186246187248187249185251184251185251184250185249186249187251186251185252185254184252184251185251186251186253187254186256184255184254185254185252187254186255186256185266184267185266184264185264186264186266186266185268184269184267184267185266186266187268186269186270184270184269184267185268187268186269187270186275000000184273000000185272186272187272186275186276000000000000184273185274187272186275187276185278000000000000000000185276186276187276186278000000185380000000000000000000000000000000000000185382185381185380000000000000000000000000000000187384186385186383184383186382188382188384187384187387186388184387186385186385187385188387188388185391185391185390186388187387188388188389188390186392185392185391185390187389188389188390188391187392186392185392185391185391188390188391187391187404184404184402184402186401188402186402187403187408184408184406184406186405186406186406187407185410185410184408184406185407186406187407186409185412184412185411184411185411186411186411188413187418186418185418185415186415186416186416188418185420185421184420186418187418188418186420188421187422186422184421185421185420188421188421188422))
 (.node 1 (.leaf 185425184425184424184424187423188423187423186425185427185426184426184425185425186425187427188428187428185427185426184426185425187427188428187429187429185428185427185426185427188428187429000000187429185431185428185427187428187429000000187429187431184432185431185428187429000000187429000000000000186432184432185431187429187429000000187431187434184434185434186432000000187431187434188435186437186437186436184434187434188435188436187437000000000000000000000000000000000000000000000000185566185566185565186563000000000000000000187566185566185567185566185565186563000000187566186566000000000000184570184569185569186569188571000000000000000000000000000000000000000000000000000000000000000000000000000000000000000000000000000000000000000000000000000000000000000000000000000000000000000000000000186581000000000000000000000000000000186584000000000000000000000000000000000000186592185592185589186589000000000000000000000000000000000000185592185589186589000000000000000000187599184598000000000000000000000000000000000000187599186599184598000000000000000000000000187598000000000000000000186599187599187598000000000000187603185601000000000000000000000000000000000000186604185602185601000000000000000000000000187604000000000000185602185601187603000000187604187605000000000000000000000000000000000000000000000000000000000000000000000000000000000000000000000000000000000000000000000000000000000000000000000000000000000000000000000000000000000000000000000000000000000000000000000000000000000000000000000000000000000000000000000000000000000000000000000000)
 (.leaf 187626185625000000000000000000000000000000000000000000184627185625000000000000000000000000000000187628184627184627185625187626000000000000000000000000000000184627184627000000000000000000188629000000000000000000184627187628000000188629186630186635184633185632000000000000186632187632186634187640184640184639186638186637187639186638187639187642000000000000184640187640187639186640187643187643000000000000000000186640186640187643188643000000000000000000000000187642187643188643188644000000000000000000000000187643188643188644188645000000000000000000000000000000188644188645188646000000000000000000000000000000188645188646000000000000000000000000000000000000000000000000000000000000000000000000000000000000000000000000000000000000000000000000000000000000000000000000000000000000000000000000000000000000000000000000000000000000000000000000000000000000000000000000000000000000000000000000000000000000000000000000000000186199000000000000000000000000000000188197189198187202186200000000000000186199189198188199188200186203186203186200000000187199188199188200187202188204187204186204186203186203187202189203189205187210187210187209187207188206189208189209189210186215186216186215186214186214187213188213188216187217187216186216186215186214188213188216188217186221186222185221185220188220188220188221187221)))))
 (.node 8 (.node 4 (.node 2 (.node 1 (.leaf 187225185224186224186223186222187222187224187224186227185228185227185226186225187225187227187227186230186230185228185228186227187227188229187229187232187231186231186230186230187229188231188232187241186241186240186239186238188239187240187241187249186249186248185246186246187246188248187248187254185252185251185251186251187251188253187253186262186263185261185260186260187260187262187262186266186266185264186264187262188262187263187265187268185268185266186266186266187265188267187267186278185278185277185276186276187276187276189277186279185279185278185277187276187276189277187279186281000000000000185279186279187279187279187281000000000000000000000000186281187281188283000000000000000000000000000000000000188283000000000000000000000000000000000000000000000000000000000000000000185382000000000000000000000000000000000000188382186382185382000000000000000000000000000000188384187384186382185382000000000000000000188383188387186386186385187384187384187384187385188386188389187389187387186386188387188386188387189389188391186392185391187389188389189389189389188390186394186393186392187392187391187391187394187394186396185396186395186394186394187395187395188396186399186399186398186397187397187398187398188399186401186400186399186398186399187398188399188400188402186401186400186399186399188399188400188401186402187403186401186400186401188400188401188402186406186405186404187404187403188403188404188405186406185407186405186404186405188404188405188406186411185411185411185410186409187409187411187411186414186413185412185412186411187412188412189413)
 (.leaf 186416185416186415187415187414189414188415188416188418187418185416186415186416188415188416189418188421185420186420187418188418189418189418187420188422187422187420185420188421187420189421189422186425185425186423187423188423188422189423189424187427185425185425186423187423189423189424189425188428185427185425185425186425189424189425188428000000187431187429187429000000187429188429187431188435187434186434000000187431187432189433188435187437186437186436187434188435188435189435188437187438186438186437186436188436189435188437188438000000000000186440186439188439188439000000000000187566185566186563000000000000000000000000000000186566185566185566186563000000000000000000000000186569185569186569186568186567187567187569188570000000000000186571185569186569188570188571000000000000000000000000186571188571188571000000000000000000000000000000000000000000000000000000000000000000186589000000000000000000000000000000000000000000186592186589000000000000000000000000000000000000000000186592186589000000000000000000000000000000000000000000186592000000000000000000000000000000187599000000000000000000000000000000000000000000000000000000187599187598000000000000000000000000187603000000000000000000000000000000000000187604186604187603000000000000000000000000000000000000000000000000000000000000000000000000000000000000000000000000000000000000000000000000000000000000000000000000000000000000000000000000000000000000000000000000000000000000000000000000000000000000000000000000000000000000000000000000000000000000000000000000000000000000000000000000000000))
 (.node 1 (.leaf 187626000000000000000000000000000000000000000000187628000000187626000000000000000000000000186630000000000000187628000000000000000000000000186631000000000000000000188629000000000000000000186632000000000000000000186630000000000000189632186634186635186634000000186632189632189633189634188637185636185636186636187634189635189636188638187639186637185636185636187635189636188638189638186638186638186637185636188637188638189638187639187643187642186640187640187639187640187640187642188645000000000000187643188643188644188645188646188646000000000000000000188644188645188646188647000000000000000000000000188645188646188647188648000000000000000000000000188646188647188648187648000000000000000000000000000000000000000000000000000000000000000000000000000000000000000000000000000000000000000000000000000000000000000000000000000000000000000000000000000000000000000000000000189198186199000000000000000000000000189197190198187202186203187202187199188199188199190202190202189203188203186203187202188200190202190202189204189209188209188206188206189207189207190208189209189210187210188209188206189208190208189209189210189211187212188211187210189210189210189211189212187213186214187213187212189211189212188213188213188216186215186214186214187213188213188215188216187224187225186223186222187222189223188224188225187229186230186229186227187227188227188229189230188232187232186230186230187229189230188231189232188236187236187235187234187233188233189235188235188239186238187238187237187237188236189238188239187246186246187244186244187244188244188244189247)
 (.leaf 188248187248186246187244187245188244189247188247187250187251186249187249187248188248189250189251187251186251187251186249187249189250189251188252188253186253186251187251187250189251188252188252187256186256186256186255187254188254189254188256187258186258186257186256187256188256188256189257187259186259186258186257187257188256189257189260187260186260186259186258187258189257189260188260187262186262186261186260187260188260189260188262187263186264187262186262187262188262188264188265187274186275187272186272188271188272189272188274187276187276186276187276187275188275189275190276189277186278187276186276187276189275190276189277187279186279186278187276187276190276189277188279187281186281186280186279187279188279190280188282188283000000186281186280187279190280188282188283187385187385187384188384188383189383190384189385187398187397186396187395187395188396188396188398187411186411186410186409187409188409189409188412187412186411186411186410187411189409188412188412189414187414186414188413188412188412189413189414189418188418186416186416188415188416189416190418187420188421186420188418189418190418190418190420189421188421188421186420189418190418190420190421189424186425187423188423188422189422189423189424189425187427186425187423189423189423189424189425188428188428187427186425189424189424189425188428187429187429188428187427189425189425188428189427187431000000187429000000187429188429190431190431187432187431000000187429188429190431190431188432188435188435187434187431187432188432000000000000189435188436188435187434189433000000000000189436)))
 (.node 2 (.node 1 (.leaf 187566000000000000000000000000000000000000000000186566187566000000000000000000000000000000187567186567186566187566000000000000000000188568187569187569186567186566000000000000188568188569000000000000000000000000000000000000000000000000000000000000000000000000000000000000000000000000000000000000187598000000000000000000000000000000000000000000000000187598000000000000000000000000000000187605187604000000000000000000000000000000000000000000187605187604000000000000000000000000000000000000000000187605000000000000000000000000000000000000000000000000000000000000000000000000000000000000000000000000000000000000000000000000000000000000000000000000000000000000000000000000000000186631186630188629000000000000000000000000189632186632186631186630000000000000000000000000189633187632186632186631000000000000000000000000189634186634187632186632189632000000000000190634189635187634186634187632189633000000190634190635189636187635187634186634189634190634190635190636188638188637187635187634189635190635190636190636187640187639186638187639189638190638190639190640187640186640187639186638187639190639190640190641187642187643186640187639187640190640190641188642000000000000000000000000000000188649189649000000000000000000000000000000000000000000000000000000000000000000000000000000000000000000000000000000000000000000000000000000000000000000000000000000000000000000000000000000000000000000000000000000000000000000000000000000000000000000000000000000190202188200188199189198190198190198189199191201)
 (.leaf 190202187202188200188199188199189199191201190203189204189203187202188200190202191201190203189203188215188213187213188213188213189212190214189215188216188216188213187213188213190214189215189215188219188219188218188217188217189216190218189219188219188220188219188218188218190218189219189219188222187221188221188220188219189219189221189221188225187225187224187224188224189223189225189226188229188229187227187227188226190227189228190229188231188231187229188229188229190229190230190231188233188233188232188231188231190231189232189232189235188235187233188233188233189232190234189234189238188238187237188236188235189235190237189238188239188239188238187237188236190237189238190239188243188242187242187242188241189241189243189244189247187246187245187244188244189244189244189246189250187249187248188248188247189247190247190250189251187250187249187248188248190247190250190251188253187253188253187251188252189251189251190254188254187254187253188253188252189251190254189254189260187259187258187257188256189256191259190260188260187260187259187258189257191259190260189261188264188262187262187262189260189261190261190262188265187263188262187262188262190261190262190263188265187265187263188262188264190262190263190266188266188267187265187263188265190263190266189266189269187268187267188267188266189266190268189268190276187276187276187275188275190274191275190276188279187279189277187276190276190276189277190278190280187279187279189277189277189277190278190281188282187281187279187279188279190278190281190282188283188283187281187279190280190281190282190283))
 (.node 1 (.leaf 189284000000188283187281188282190282190283189284188284000000000000188283188283190283189284190285190384187384188383000000000000000000000000190384190387188386187385187384190384190384190385191387190387188387188386187385189385190385191387189388188391188390189389189389189388191389189389189391188403188403188402188401189401189402190402189404188406188405188404188403188403189404190404189406188412187411187411187409188409190410189409190410188412187412187411187411189409189409190410189412188416188415189414189413189413190413190414191416190420187420189418189418190418191419190418190419190421189421187420189418190418190418190419190420188428188428189425189424189424191424190427189427188429187429187429188428188428189427190427191429190431188429187429187429189427190427191429191429190431187431188429187429188429191429191429191430188432187432187431188429190431191429191430191432000000189433187432187431190431191430191432000000000000188439188438188437190436190437190438000000000000000000000000000000000000000000000000000000000000000000000000000000000000000000000000000000188568187567000000000000000000000000000000000000188569187569187567000000000000000000000000191569188570188570187569187567188568000000191569190570189571188571188570187569188569191569190570190571000000000000188571188570188570190570190571000000000000000000000000000000000000000000190598000000000000000000000000000000000000190598000000000000000000000000000000000000000000000000000000000000000000000000000000000000000000000000000000000000000000000000000000000000000000000000000000000000)
 (.leaf 190638189638188638189636190636000000191636191637190640187640187639189638190638191637190638191640190641187640187640187639190639190638191640190640188642187642187640187640190640191640190640191642188644188645188644187642188642191642189642191644188644188646188645188644188643189642191644190644188646188647188646188645188644191644190644190645188647188648188647188646188644190644190645189647188649000000187648188648188647189647189647189649000000000000000000000000188649189649189649000000000000000000000000000000189649189649000000000000000000000000000000000000000000000000000000000000000000000000000000000000000000000000000000000000000000000000000000000000000000000000191663000000000000000000000000000000000000191663000000000000000000000000000000000000000000000000000000000000000000000000000000000000000000000000000000000000000000000000000000000000000000000000000000000000191198189197000000000000000000000000000000191197189199188199190198189197191198191197191198191199191201190202188199190198190198191198191199191202190203190202190202188199189199191199191202190202189206189206189205189204189203191202191205192206189206189207189206189205189204191205192206191207190208190208189207189206189206192206191207190208189209189209190208189207189206191207190208190208189215188215188213188213189212190212190214190214189216188217188216188215189215190214190216191217189222189223188222189221189221190220190222190223189226188225188225188224189223190223190225190225))))
 (.node 4 (.node 2 (.node 1 (.leaf 189228188227188226188225189226190225190227191228190230189230188229188227189228191228191229190230190234188233188233189232189232191232190233190234190237188236188235189235189234191233191234190237189238189238188236188235189235191234190237190238189244188244188244188243189244190243191245190246189246189247188244188244189244191245190246190246190251189251189250188248190247190248191248190251189254188254188253188252189251190252190254190254189256188256189254188254189254190254191254190256190260189260189257188256189256190257191259191260189261188260189260189257191259191259191260191261189266188266188265188265190263190264190264190266189273188272188272188270189270190270191272190272189274188274189272188272189273190272190274191275191275189275188275188274189274191275190274191275189277189277190276189275191275191275191276190278190281190280188279189277189277190278192279191281189285000000188284189284189284190283190285190285000000000000000000000000000000190286191288191289000000000000000000000000000000191288191289000000000000000000000000000000000000191289000000000000191387190387189385190384190384192384191385191386191389189388190387190387191387191386190387191388189389189389189388190387189388190387191388190390189392188392188391189389189389190390192391191393189393188393188392188391189391192391191393190393189397188396188396188395189395190395190397190397189399188399188398188396189397190397190397191400189400188400188399188398189398190397191400190400189402189401188401188400189400190400190402190402189409189409188409188408189408190408190410191411)
 (.leaf 189413188412188412188412190410190411191413190413191416188416189414189413190413191413191414191415189417189416188416189414190414191414191415191416191419190418189416188416191416191415191416191417191424189423189422190421190421190421191422191423191424189424189423189422190422191422191423192425190427189425189424189423191424191423192425190426191429190431188429189427190427190428192430192430191430190431190431188429191429192430192430191432000000000000188432190431191430191432192432190433190436189436000000000000000000190433192435192436190437190436189436000000189434192435192436191437000000000000000000000000000000000000000000000000000000000000000000000000000000000000000000000000191569188569188568000000000000000000000000000000190570188570188569188568000000000000000000000000190571189571188570188569191569000000000000000000000000000000000000000000000000000000000000000000000000000000000000000000190598000000000000000000000000000000000000000000000000000000000000000000000000000000000000000000000000000000000000000000000000000000000000000000000000000000000000000000000000000000000000000000000000000000000000000000191637190638190636190636000000000000191636191637189642188643188642190641190640192641192642192642191644188644188643188642191642192642192642192644189647188648188647188646190645192646190646192649189649189649188649188648189647192649190648190650000000000000000000189649189649190650191650000000000000000000000000000000000000000000000000000000000000000000000000000000000000000000000000192661191663000000000000000000000000192661000000000000))
 (.node 1 (.leaf 191663000000000000000000000000000000000000000000000000000000000000000000191202191201189199190198191198192198193199191202192206189206189204189203191202192202191203193206190208190208189206189206192206193206193207191207190209190210189209190208190208191207191207191210191211189211190210189209190208191207191210191210190216189215189215190214190214191213192215191215190217190218189216189215190216191215191217191218190220189221189219189219190219192219192220191221190222189221189221189219190220192220191221192222190223189223189222189221190222192222192223192224190225189225189223189222190223192223192224191224190227190227189226189225190225191224192226193227191228189228190227189226190225192226193227191228191229190229189228190227190227193227191228192229190237190237189235189234191233192235192236191237190238189238190237189235191234192236191237191237191245189244189244189243190242191242192244191245190246189244189244189244190243192244191245191245190247189247189246189244190246191245191245191247190251190251190250190247190248191248192248191250190254190254189251189251190251191251192251191254190254189254190254189251190252192251191254191254190256189256189255189254190254191254192254192255190257189256189256189255191254192254192255192258191259191259189256189256190256192255192258191258190262190262190261189261190261191261191261191263190264190266190263190262190262191263191263191265190267190268189266190266190264191265192265191267190270189270189270189268190269191268192270192271)
 (.leaf 191272189271189270189270190269192270192271191271190274190274189274189273190274191273191273191275190278189277190276191275191275192275192276192279192279190278189277190276191276192276192279193280191281190281190278189277190278192279193280192281190282190282190281190278192279193280192281192282190285190285189284190283190283191282191284192285190286000000189285190285190285192285191286192285191289000000000000000000190286192285192288192289192384190384000000000000000000000000000000193385191393189392189391189389190390191390191392191392190400189400189399189398190397191398191400192401190406189406190404189404190403191404192404191406190410190410189408189407190407191407192407191410191411189409190410189408190408192407191410192411190413189413189412190410190411191411192413191413190421190421190420190419190419193420193421191422190426190427191424191424191423191424192424192425190427189427190427191424192425192424192425192426190428190427189427190427190426192425192426192429192430191429190427189427190427192426192429193430192432191432191430191429192430000000192432193433192435189434000000191432192432193433193433192435192436190436189434000000190433193433192435192436191437190437190436189434192435192435192436192437000000190438190437190436192436192436192437000000000000000000000000190438000000000000000000000000000000190570191569000000000000000000000000000000000000000000190571190570000000000000000000000000000000000000000000190571000000000000000000191572000000000000000000000000000000000000000000000000000000000000190598000000000000000000000000000000)))
 (.node 2 (.node 1 (.leaf 190598000000000000000000000000000000000000000000000000000000000000000000000000000000000000000000000000000000000000000000000000000000000000000000000000000000000000000000000000000000000000000000000000000000000000000000000000192639190638191637191636191636192636193638193639192640191640190638191637191637193638193639193640192642191642190640191640192640193640193640193641192644191644189642191642192642193641192642193644192646190645190644191644192644193644193646193647190646189647190645190644192645193646193647193648192649189647189647190645192646193647193648193649190648189649189647189647190646193648193649193649190650189649189649189647192649193649193649192649000000000000000000000000191650191651193652191653000000000000000000000000000000191653193655000000000000000000000000000000000000193655000000000000000000000000000000000000000000000000000000000000000000000000000000000000000000000000000000000000000000000000000000000000000000000000000000000000000000000000000000000000000000000000000000000000192661000000000000000000000000000000000000000000000000000000000000000000000000000000000000000000000000191663000000000000192661000000000000000000000000000000000000000000000000000000000000000000000000000000000000000000000000000000000000000000000000000000000000000000000000000000000000000000000000000000000000000000000000000000000000000000000000191197000000000000000000000000000000000000193199191199191198191197000000000000000000000000191202191202191199191198192198000000000000193200191202190202191202191199193199000000193200193201)
 (.leaf 193207191207192206191205191203192204194205194206191207190208190208191207193207194206192208192208191213190214190212190211191212192211193213192213192219190219190217191217191217193217193218193219192220190220190219190217191218193218193219193220192223190223190222190220191221193221192222192222193227190227190225190225191224193225193226193227192229191229191228190227193227193227192228193229191233190234190233191232191231192231192233192233192236191234191233190234191233192233193235192235192244190243190242190240191241193242192241192243191248190248190247190246191245192246192248192248191250190251191248190248191248192248192250192250191254190254190252190251191251192251192251192254191254190254190254190252192251192251192254193255192258190257190256191254192254192255193255193256191258191259190257190256192255193255193256192258191260191261191260191259191258192258192260193261191261190262190261191261191260193261193262192263191263190262190262190261191261193262192263192263191265190264190264190262191263192263193265192265191267190267190266190264191265192265193265192268191268190269190267190266192265193265192268193269192271190270190269190269191268193269193270192271191273190274190272191272191271193272193273192274191273191275190274190272191272193273192274192274192279190278191276191275192275192276194277193277193280192279190278191276192276194277193277193280192282190282191281192279193280193280192281193282192285190285190283190283191282192282193284193285191286190285190285190283191284193284193285192285192288191288190286190285191286192285192285193286))
 (.node 1 (.leaf 192289191289191288190286192285192285193286192289191385191385192384000000000000000000000000194386191387191386191385192384193385000000194386193386191387190387191386191385191385194386193386193387193389191388190387191386191387193386193387193388191390190390191388190387191387193387193388192390191401190402190400191400191400192399192401192401191403191402190402190402191401192401192401193402191404190403191402190402192401192401193402192404191406190406190405190403191404192404193404192407191407190407190406190405192404193404192407192407191410190410190408190407191407192407192407193408192411191411190410190408192407192407193408192410191413190413191413190411191411193410192413192413191414191414191413190413191413192413193413193414191416191416191415191414191414193414192415192417191419191418191417191416191416192417193419192419193421191420190419191418191419192419193419193420191422190421191420190419193420193419193420194422191422191422190421191420193421193420194422194423191424191423191422190421191422194422194423194424192429190428190427190426192425194425193426194429193430192430190428190427192426193426194429193430193433192432191432192430000000194431194431194432192435192435190433192432193433194432193434192435192436192436192435190433193433193434192435193436000000000000000000000000000000192437000000000000000000000000000000000000000000000000000000000000191572000000000000000000000000000000000000000000000000000000000000000000000000000000000000192573000000000000000000000000000000192574193574192576000000000000000000000000000000000000000000000000)
 (.leaf 193638191637191636000000000000000000000000193637193639192639191637191636192636000000193637193638193644192644192642192642193641194642194643194643193649192649190646192646193647193647194648193649193649190648192649190646193648194648193649194650191651191650190650190648193649194650194650193650193652000000191650190650192649194650193650193653191653000000000000191650191651193650193653000000193655000000000000000000193652193653000000000000000000000000000000000000191653000000000000000000000000000000000000000000193655000000000000000000000000000000000000000000000000000000000000000000000000000000000000000000000000000000000000000000000000192661000000000000000000000000000000000000000000000000000000000000000000000000000000000000000000000000000000000000000000000000000000000000000000000000000000000000000000000000000000000000000000000000000000000000000000000000000000000000000000000000000000000000000000000000000000000000192203192202191202191202193200194200194201194202194205193206191203192202192203194202193203194206194206193207193206191203192204193203194206193207192209191210191207191207192208193207194209193209192211191212191210191210192209193209194209193211192213191213191212191212192211193211194211194214192216191215192215191213192213194214194215194216193217191217191215192215192214194215194216193217193218191218191217191215192216194216193217193218192224192224192223192222192222194222195223194224))))))
 (.node 16 (.node 8 (.node 4 (.node 2 (.node 1 (.leaf 193225191224192224192223192222195223194224193225193226192226191224192224192224194224193225193226192239191239191238191237192237193237193239193239192241191242191241191240192240193240193242193242192245191245191245192244192243193243193243193245192250191250192248191248192248194249193248193250193255191254191254192251192251193252194252193255192255192254191254191254192254194252193255193255192258191258192258192255193255193256193256194257192260191259191258192258193256193256194257194260193261191260191259191258192258194257194260194261193262191261191260191259192260194260194261193261193265191263191263191261192263193262193262193265192265191265191263191263192263193262193265194264192268191267192265191265192265194264194265194268193269191268191267192265193265194265194268194269193270192270191268191267192268194268194269194270194277192276192275191275193274193275193275194276193280193280192279192276194277194276194277193280192281192281193280192279193277194277193280193280193285192285191284191282192282193281194284193284192289192289192288192285192285194287195287194289000000000000192289192288193286195287194289194290000000000000000000192289192289194289194290000000192393191393191392191392192391193391194393193393192398191398191397191396192396193395193396193398192404191404191403192401192401193402193402194403192407192407191407191406192407193406194408193408192410192411191410192407192407193408193408194411192415192415191414191414193413193414193414194415192417191416192415191414193414193414194415194416193419192419191416192415192415194415194416193418)
 (.leaf 194423191422191422193421193420194420195423195423194424191424191422191422194422195423195423194423194425192424191424191422194423195423194423194424194425192425192424191424194424194423194424194425194429192429192426192425194425194425193426194429193430193430192429192426193426193426194429193429194432193433192432000000194431194431194432195433193434193433193433192432194431194432195433195433193437192437192436192435192435193434194436193437000000000000000000000000000000000000000000000000000000000000000000000000000000000000000000000000000000191572000000000000000000000000000000000000192573000000191572000000000000000000000000000000192574000000000000191572000000000000000000000000192576000000000000000000192574000000000000194577000000000000000000000000193574000000194577195577000000000000000000000000192576194577195577195578000000000000000000000000000000195577195578194578000000000000000000000000000000195578194578195580000000000000000000000000000000194578195580193581000000000000000000000000000000193581194583194584000000000000000000000000000000194583194584193585000000000000000000000000000000194584193585000000000000000000000000000000000000000000000000000000000000000000000000000000000000000000000000000000000000000000000000000000000000000000000000000000000000000000000000000000000000000000000000000000000000000000000000000000000000000000000000000000194643192642193641193640194642194640195642195642194643193644192642193641194642195642195642195644193647193647193646193644194643195644195646195647193653193652191651192649194650195650194650193652))
 (.node 1 (.leaf 193655191653000000194654000000000000000000000000000000000000000000000000000000000000000000000000000000000000000000000000000000000000000000000000000000000000000000000000000000000000193203192204192203193201194201195201195202194204194209192208192208194206193207194206194206194209193209192209192208192208193207194206194209194209193211192211192210192209193209194209195209195210194214192213193213192211193211195210195213195214194215192214192213193213194211195213195214194215194220193220193219193218193218194217194219194219195223192222192222193221193220195221195222195223193225193225192224192222195223195223195224195225193227193227193226193225193225195225195226195227194228192228193227193226193226195226195227195228193228193229192228193227193227195227195228194229193233192233192233192231193231194231195233194233193240192240192239192238193239194238195238194240193242192241193242192240193240194240194242194242193246192246192245192244193243194243194244195245193247192248192246192245193245194244195245194247193248192250192248192248193247194247195249194249193252192251192251192250193250194250194250194252193255193255192254192251193252194252194252194254193256193255192255193255193255194254195256194256194260192260192258193256193256194257195257195260194261193261192260192258194257195257195260195261193262192263192263193262193261194261195261195264193265193265192263192263193262195261195264194264194268192268193265192265194264194264195265194268194269193269192268193265194265195265194268194268193275192276193274192274193274194274195274194276)
 (.leaf 193280193280193277194277194276194277195277196280193280192281193280193277194277195277196280196280193281193282192281193280193280196280196280196281193281192282193282192281193280196280196281196282194284193284192282193282193281196281196282194283194287192285192285193285193284196283195284195287195287193286192285192285193285195284195287195288195387193387193386194386194385000000195386195387193391192391192390193388194388194389195389194391193396192397192396192395193394194395195395194397194411192410193408192407193408194408195410194410194414192413192413193410193411196412196412194414193414193413192413192413193412196412194414195413193418193419192417192415194415194415195416196417193419192419193419192417194416195416196417195418193420193419192419193419193418196417195418194420195423194422193420193419193420194420194420194422193426193426194425194425194424196425196426194428194429194429193426194425194425196426194428194428193434192435193434194432195433195433195434195435194436193436192435193434195433195434195435195436193437193437193436192435193434195435195436195437000000000000192437193437193437195437195438000000000000000000000000192437193438195438000000000000000000000000000000000000000000000000000000000000000000000000000000000000000000000000000000000000000000192573000000000000000000000000000000000000000000192574192573000000000000000000000000000000000000193574192574192573000000000000000000000000194577192576193574192574000000000000000000000000195577000000192576193574000000000000000000000000195580000000000000000000195578000000000000196580)))
 (.node 2 (.node 1 (.leaf 193581000000000000000000194578000000196580194582194583000000000000000000195580196580194582194582000000000000000000000000193585195585000000000000000000000000000000000000000000000000000000000000000000000000000000000000000000000000000000000000000000000000000000000000000000000000000000000000000000000000000000000000000000000000000000000000000000000000000000000000000000000000000000000000000000000000000000000000000000000000000000000000000000000000000000000000000000000000000000196637000000193637000000000000000000000000196637196638195642194642194642194639195640196639196640195643195646194645194643194643195642196644195645195646195648194648193647194645195646195646196647000000195648193649194648193647195647196647000000000000195650194650194650193649195648000000000000000000193652193653193650194650195650000000000000196652194654000000193653193650194650000000196652195652000000000000000000193653193652196652195652000000000000000000000000000000000000000000000000000000000000000000000000000000000000000000000000000000000000000000000000000000000000000000000000000000000000000000000000000000000000000000000000000000000000000000000000000000000000000000000000000000000000194200000000000000000000000000000000000000194204193203194202194201195201000000197203195204194206193207194206193203194204195204196204195206194209194209193207193207194206195206196206195209194209193209194209193207194206196206195209196210195213194211193211194209195209195210196210196211195214194214194211193211195210196210196211196214194216193217194216194215194215195214195214195217)
 (.leaf 194217193218193217194216194215195214195217195218195222194222193220194220194219195219196221195222194233193233193232193231194231195231195231196234194238193239193237193236194236195236195236195238194242193242193240193239195238195239195239196240194242193242193242193240194240195239196240195242194247193247193246193245194244195245196245195247194252193252193251193250194250195250195250196253194252194252193252193251194250195250196253195253195260194260194257193256194257195257196257196260195261194261194260194257195257196257196260195260195264193262193262193261194261195261196261195264194264193265193262193262195261196261195264195264194268194268194265194264194264195265196265195267194270194270194269194268194268195267195269195270194272193273193271194271194270195270196272195272196280193280194277194276194277195276196277197280196280193280193280194277195277196277197280197281196281193281193280193280196280197280197281197281196282193281193281193280196280197281197281197282194283194284193281193281196281197281197282196282196283193284194284193281196282197282196282197284195287194287193285193284196283197284196284196287195288195287194287193285195284196284196287196288000000000000194290194289194288196289196290000000000000000000000000000000000000000000000000000000194389194388195387195386195386196386196387196388194391193391193390194388194389196388196389197391194392194393193391193390195389196389197391196393194394193393194393193391194391197391196393195394194394194393193393194393194392196393195394195394194410194411193408193408194408195408195410195410))
 (.node 1 (.leaf 196412193412193411194411194410195410196412196413194414194414193412193411196412196412196413195413195416193414193414194414194414195413195413196414194415194415193414193414195413195413196414195416194420193420193419193418196417196417197419196421194420194420193420193419195418197419196421195421195424195423195423194420194420195421196421197424196426194425194424194423196425196425000000197426194428193426194425194424196425000000197426196426194428194429193426194425196426197426196426196429195430193429194429193426194428196426196429195429195433195433194432194431194430196429196432196433195434195433195433194432194430196432196433196434000000000000000000000000000000000000000000000000000000000000000000000000000000000000000000000000000000194577000000000000000000000000000000000000000000195577194577000000000000000000000000000000196580195580194578195578000000000000000000000000194582194583193581195580196580000000000000000000195584194584194583193581194582000000000000000000195585193585194584194583194582000000000000000000000000000000000000000000000000000000000000000000000000000000000000000000000000000000000000000000000000000000000000000000000000000000000000000000000000000000000000000000000000000000000000000000000000000000000000000000000000000000000000000000000000000000000000000000000000000000000000000000000000000000000000000000000000000000000000000000000000000000000000000000000000000000000000000000000000000000000000000000000000000000000000000000000000000000000000000000000000000000000000000000196637000000000000000000000000000000000000000000)
 (.leaf 196638000000000000000000000000000000000000000000196639195640194638000000196638000000000000000000195643195642194640195640196639000000197640196641196652193652194650195650000000000000000000000000000000000000194654193652196652000000196652195655000000000000000000194654195652196652195655195655000000000000000000000000000000000000000000000000000000000000000000000000000000000000000000000000000000000000000000000000000000000000000000000000000000000000000000000000000000000000000000000000000000000000000000000000000000000000000000000000000000000000000000000000000000000000000000000000000000000000000000000000000000000000000000000000000000000000000000000000000000000000000000000000000000195201000000000000000000000000000000000000197203195202195201000000000000000000000000197202195204194204195202195201000000000000197202197203196210194209194209194206196206196207196209196209196214195214195213195210196210196211197211197212195214194215195214195213196211197211197212196214195217194216194215194215195214196214196214196216195218194219194217194216195217196216196218197219195222195222195221194219195219196219196221197222196224195224195223195222195222197222198222196224195228195228195227195226195225196225197227197228196229194229195228195227195227197227197228196228195231194231194230194230195229196228196229196231196234194233195233194231195231196231196233196233195236194236194235194234195234196234196234197235195236194237194236194235195235196234197235197238195238194238194237194236195236197235197238196238195242194242194242194240195239196240196240196242))))
 (.node 4 (.node 2 (.node 1 (.leaf 195247194247195245194244195245197244197245197246195248195249194247195245196245197245197246198247195249194249195249194247195247197246198247197248195250194250194249195249195248198247197248196250196257194256195256194254195254196254197254197255195257194257194256195256195255197254197255196257196260195260195257194257195257196257197259197260195260195261195260195257196257197259197260197261195264195264195261194261195261196261197263196263195265194264194264195264195264196263197263196265195267194268195265194264195265196265196267197268195270194270194270194268195269196268197268196270195272194272194271194270195270196270197272196272195274194274194273194272195272196272196274196274195276194277194276195274196274196275197275198277197280196280195277194277195276198277198279197280197281196280196280195277196277198279197280197281196287195287195284196283197284198283198285197285196288195288195287195284196284198285197285197288197391194391195389194389196388197388197389198391196393194392194391195389196389197389198391198391195394194394194392194391197391198391198391196393195394194395194394194394195394196393196395196395195398194398194397195395195396197395196396196398195410195410194408194407195407196407197407196409196412196412194410195410195410196409197411196411195416194415195416195413195413196414197416196417195417195416194415195416196414197416196417196417197419195418196417195416195417196417197417198418196421194420195418196417196417197417198418196421195421194420194420195418197419198418196421196421197424195424194422194420195421196421196421197424)
 (.leaf 196425196425195424194422196421196421197424196424196429194428194428196426197426196425196428196428196432194430194430195430195429196428198431197432196433195433194430194430196429198431197432196433000000000000195438195437195437196436197438000000000000000000000000195438195437197438000000000000000000194582194582196580000000000000000000000000000000195584194582194582000000000000000000000000000000195585195584194582000000000000000000000000000000000000195585195584000000000000000000000000000000000000000000195585000000000000000000000000000000000000000000000000000000000000000000000000000000000000000000000000000000000000000000000000000000000000000000000000000000000000000000000000000000000000000000000000000000000000000000000000000000000000000000000000000000000000000000000000000000000000000000000000000000000000000000000000000000000000000000000000000000000000000000000000000000000000000000000000000000000000000000000000000000000000000000000000000000000000000000000000000000000000000000000000000000000000000000000000000000000000000000000000000000000000000000000000000000000000000000000000000000000000000000000000000000000000000000000000000000000000000000000000000000000000000000000000000000000000000000000000000000000000000000000000000000000000000000000000000000000000000000000000000000000000000000000000000000000000000000000000000000000000000000000000000000000000000000000000000000000000000000000000000000000000000000000000000000000000000000000000000000000000000000000000000000000000000000000000000000000000000000000000000000000000000000000000))
 (.node 1 (.leaf 196637000000000000000000000000000000000000196644196644195643196640197640000000198642198644196645195645196644195643196641198642198644198644000000196652000000000000000000000000000000000000195655000000195652196652000000000000000000198654195655000000000000195652196652000000198654196656000000000000000000000000195655198654196656000000000000000000000000000000000000000000000000000000000000000000000000000000000000000000000000000000000000000000000000000000000000000000000000000000000000000000000000000000000000000000000000000000000000000000000000000000000000000000000000000000000000000000000000000000000000000000000000000000000000000000000000000000000000000000000000000000000000000000000000000000000000000000000000000000000000000000000000000000000000000000000000000000000000000000000000000000000000000000000000000000000000000000000000000000000000000000000000000000000000000000000000000000000000000000000000000000196207196206195206196204196205198206197205198208196209196210195209196206196207198208197207198210197211195210196210195209196209197207198210197210)
 (.leaf 196214195214196214196211197211199211197212197214196216195217195214195214196214197214198214197217196218195218195217195214196214198214197217198218197222195222196221195219196219198220197221198222197225196225196224196223198222198223197224198225197228195228195227195225196225197225198227197227196231195231195230195229196228197229198231197232196233195231195231195230196229198231197232197233196240195239195239195238196238197238198238197241196240196240195239195239196239198238197241197241196243195243195242196240196240197241197243198242198247195248195247196245197245198245198246198247196250195250195249195248198247198247199248199251196251195250195250195249197248199248199251198252196252196253195250195250196250199251198252197253196253195253196253195250196251198252197253197253196257195257196257195255197254197255198255197257197260196260196257195257196257197257198259198260196263195264196261195261196261197261198263197263196265195265195264195264196263197263198263198264196267196265195265195264197263198263198264197266196268195269195267196265196267197266197268197268196270195270195270195269196268197268197270198271196274195274195273195272196272197272198274198275196275196274195274195273196274198274198275197275198277195276195275196274196275197275199276198278198279196277195276195275197275199276198278198279197280197280196277195276198277198278198279197280197281197281197280196277198279198279197280197280197288196288196287196284198285199285199286199288197289196289196288196287197285199286199288000000198391197391196389196388197388199388198389198390)))
 (.node 2 (.node 1 (.leaf 196393195394196393197391198391198390198391197393196395195394195394195394196393197393198395197395196396195397195396195394196395197395197395198396196398195398195397195396197395197395198396197398196409195410195408195407196407197407198407198410197411195410195410195408197407198407198410198411196411196412195410195410196409198410198411197412197416196414195413195413196413197413199414198414196417195416196414195413196414199414198414198417198418197419196417195417196417197417198417197419196421196421195421196421196421197420198420199423197424197424196421195421196421198420199423198424196424196425197424196421196421199423198424199424196425197426000000196425196424199424197424199427196428196429196426197426196425199427199428197428198431196429195429196429196428197428198430198431197432196432196429195429196428198430198431197432196433196433196432196429198431198431197432197432196435196435196434196433196433197432198434197434196436195437195435196435196435197434198436197437197438195437195437195435196435198436197437197437000000000000000000000000000000197438000000000000000000000000000000000000000000000000000000000000000000000000000000000000000000000000000000000000000000000000000000000000000000000000000000000000000000000000000000000000000000000000000000000000000000000000000000000000000000000000000000000000000000000000000000000000000000000000000000000000000000000000000000000000000000000000000000000000000000000000000000000000000000000000000000000000000000000000000000000000000000000000000000000000000000000000000000000000000000000000000000000000)
 (.leaf 199609000000000000000000000000000000199609000000000000000000000000000000000000000000000000000000000000000000000000000000000000000000000000000000000000000000000000000000000000000000000000000000000000000000000000000000000000000000000000000000000000198642196641197640000000000000000000000000000000198644196644196641197640000000000000000000000000198644196645196644196641198642000000000000000000196645196646196645196644198644000000000000000000000000000000196646196645198644000000000000000000000000000000000000196646196645000000000000000000000000196652000000000000000000000000000000000000198654195655196652000000000000000000000000198653196656195655195655196652000000000000198653198654000000000000195655195655198654198653198654199657000000000000000000195655196656198654199657000000000000000000000000000000000000000000000000000000000000000000000000000000000000000000000000000000000000000000000000000000000000000000000000000000000000000000000000000000000000000000000000000000000000000000000000000000000000000000000000000000))
 (.node 1 (.leaf 197204197203197202000000000000000000000000199203197205197207196205197203197204199203198204198206197207196209196207197207197205198206199208198208197210197211196209196209197207198208199210198210197214196214197212197211199211199211198212198214197217196216196214196214197214198214199216199217198218196218196216196214198214199216199217198217197229196228196228197228197227199228199229199230198231196229196228196228197228199229199230198230197235196234196234196233197233198233199233198236197236197235196234196234197234199233198236198236197241196240196239196238197238198238199238198240197245197244196244196243198242198242199243198245199248197248198247197246198246198246199247199248199251196250197248198247198247199247199248200249198252196251196250197248199248199248200249198252197253196252196251196250199251200249198252198253197255197254196254196253197253199254199255198255197257196257197255197254197255198255199255199258198259197259196257197255198255199255199258199259198260197260197259196257197257199258199259198259198263197263196261197261197260199259198260199263197263196263197263196261197261198260199263198263197266196267196265197263198263198263198264200265197268197268196267196265198264198264200265198268197268196268197268196267197266200265198268198268198271196270197268196268197268198268199270198271)
 (.leaf 197271197272196270197268197270199270198271199270198274196274196272197272197271199270199273199274198275196274196274196272197272199273199274200275198278198277197275196275197275199276199277198277198283197283197282197281197280198280199282200283199284198283197283197282197281199282200283199284199285198285198283198283199284199284199285200286199288197288197285198285199285200286200286200287000000197289197288197285199286200286200287000000000000000000197289197288199288200287000000000000000000000000000000197289000000000000000000000000199388197388197387197386198386200387198387199388197393196393198391198391198390199390199391199392198395196395196393198391198391199391199392198394197399196399196398196396198396199396198397198399197405196405196404196403197403198403199403198405197407196407196406196405197405198405199405198407198410196409197407196407197407198407199409199410198411197411196409197407198407199409199410198410197413196413196413196411197412198411199413199414198417196417197416196414199414198413199414198417197417196417196417197416198414199414198417198417197420196421198418197417198417198418199418199419199423196421196421196421197420199419200421199423198424197424196421196421198420200421199423200424199424196424197424196421199423199423200424200424199427196425196425196424199424200424199424200426199428196428196425196425197424199424200426199428197428196428196428196425199427200426199428200428198430196428196428196428199428199428200428200429198431198431196428196428197428200428200429200430198434196434196433197432197432198431198433198433)))))
 (.node 8 (.node 4 (.node 2 (.node 1 (.leaf 197437196436196435196435197434198434198436199437197438000000197438196436197437199437199438198439000000000000000000197438197437199438198439000000000000000000000000000000000000000000000000000000000000000000000000000000000000000000000000000000000000000000000000000000000000000000000000000000000000000000000000000000000000000000000000000000000000000000000000000000000000000000000000000000199609000000000000000000000000000000200608000000000000000000000000000000000000200608000000000000000000000000000000000000199609000000000000000000000000000000000000000000000000000000000000000000000000000000000000000000000000000000000000000000000000198642000000000000000000000000000000000000000000198644198644198642000000000000000000000000000000000000196645198644000000000000000000000000000000000000000000196645000000000000000000000000199657000000196656198654198653000000200655200656000000000000000000196656198654200655200656198657000000000000000000000000000000198657000000000000000000000000000000000000000000000000000000000000000000000000000000000000000000000000000000000000000000000000000000000000000000000000000000000000000000000000000000000000000000000000000000000000000000000000000000000000000000000000000000000000000000000000000000000000000000000000000000000000000000000000000000000000000000000000000000000000000000000000000000000000000000000000000000000000000000000000000000000000000000000000000000000000198204198206197204198202000000000000200203201205198206197205198206197204199203200203201205199206198212197212199211197210198211199211200211200212)
 (.leaf 198214197214197212199211199211200211200212199214199217197217198214197214198214199214199214200217198222198222197221198220198220199219200221199222198222198223198222197221198221200221199222200223198225198225197224198223198222200223200224199224199227198227197225198225198225199224199226199227198236197235197234197233198233199233200233200236198236197236197235197234199233200233200236199236198240197241198238197238198238199238199238199240198242197243197241197241198240199240199240199243198242198242197243197241198241199240199243199243198245197245198243198242198242199243200243200244200249199251199248198247199247199248200248200249198252198252199251199248199248200248200249200250199255197254197253197253198253199252199254200253199258197257198255197255198255199255200255200258199259198259197257198255199255200255200258200259199263198263197261197260199259199259199260200263198263197263198263197261198260199260200263199263200265197266198264198263198263199264200264200265198268197268197266198264198264200264200265200266198268197268197268197266200265200265200266199268199273197272197271198271198271199270199270199273199274198274197272197271199270199270199273200274198280197280197280198279198278199278201280201281199282197281197280197280198279201280201281201281200283198283197281197280198280201281201281200283199285199284199284198283200283200283201284199285000000000000199288199286200286200287000000000000200387198386000000000000000000000000000000200386198387199388198386000000000000000000200386200387198394198395197393198391199391199392200392200393))
 (.node 1 (.leaf 198396197395197395198395198394200393200394200397198399197399197398198396199396199397199397199399198405197405197404197403198403199403199403199406199409198407197407197406199405200405199406199408199414197413197412197412198411199411200413199414198417198417198414199414198413199414200414200417198417197417198417198414199414200414200417199417200421198420197420197419199418201419201421201422199423199423198420197420199419201421201422201422200424198424199423198420200421201422201422201423200426199427197424199424200424200423201425200425199428199428199427197424199424201425200425200428200430198431198430197428200428201428201428200429198431197432198431198430200429201428200429200430198433197432197432198431200430200429200430199432198434197434198434197432198433199432199434199434199437197437198436197434198434199434200436199437199438197437197437198436198436200436199437200438000000000000000000197438198439200439000000000000000000000000000000000000000000000000000000000000000000000000000000000000000000000000000000000000000000000000000000000000000000000000000000000000000000000000000000000000000000000000000000000000200608000000000000000000000000000000000000000000000000199609000000000000000000000000000000000000000000000000000000199609000000000000000000000000200655198654198653000000000000000000000000000000200656199657198654198653000000000000000000000000198657000000199657198654200655000000000000000000000000000000000000000000198657000000000000000000000000000000000000000000000000000000000000000000000000000000000000000000000000000000000000000000)
 (.leaf 201205198204199203000000000000000000000000201204199206198206198204199203200203000000201204202205199207199208198206198204201205201204202205202207199209198208199208198206199206202205202207201209199209199210198208199208199207202207201209202210199210198210199210198208199209201209202210200210199214198214198212199211200211200211201212201213199214199216198214198212200212201212201213201216200217199217199216198214199214201213201216200217199218198217199217199216199214201216200217200218200224198224198222198222199222201222200223201224199228199229199228199227199227201227201228200229199231198231198230199230199229200229201229201230199233198233198232198231199231201230200231200233200236198236199233198233199233200233200235201236199238198238198237198236199236200236201236200238199240198241198240199238199238200239200241200241199243198242198242198241199240200241200243200243199245198246198245199243200243201243201244201247199246198246198246198245200244201244201247201248199248199247198246198246199245201247201248200248199252198253198252200249200249200250200250201253199254199254198253198252200250200250201253200253199255198255199255199254199254200253200253200255)))
 (.node 2 (.node 1 (.leaf 200258199258199255198255199255200255201257201258200259199259199258199255200255201257201258200259200263199263198260199259199259200260201260201263199263198263199263198260199260201260201263200263199268198268198268200265200265200266201266202269199269199270198268198268200266201266202269201270199270198271199270198268199268202269201270200270199273199273199270198271199270200270202271202273200274199274199273199270199270202271202273201274200275200275199274199273199273202273201274200275199278198278198277199277200275200276201276200278201281198280198279198278199278200278201280201281201281199282198280198279201280201280201281202282200283200283199282198280201281201281202282202283201284199284200283199282201281202282202283202284201286200286199285199284201284202284202285000000200287200286200286199285199285202285000000000000199391199390199389199388200388200388200389200391199397199396198396199394200394200394200395200397199400198400198399198397199397200398200400200401199403199403198403198402199402200402201404200404199408199409198407199405200405201405200406200409199409199410199409198407199406200406200409200409200413199413198411198410199411200410200410200413199414199414199413198411199411200410200413200413200417198417199414198413199414200414200414201417199417198417198417199414200414200414201417200417201419199418198418198417199417200417201417202419201421199419199418198418201417201417202419202420201422200421199419199418201419202419202420202421201423200424199423200421201422202421202421201422201428200428199428200426200425202425201428202428)
 (.leaf 199432198433198431200430200429202430202431202432199434198433198433198431200430202431202432201434199434198434198433198433199432202432201434201435200436198436198434198433199434201434201435202435199437199437198436198434199434201435202435202436200439198439199438199437199437202436202437202438000000000000000000000000000000000000000000000000000000000000000000000000000000000000000000000000000000000000000000000000000000000000000000000000000000000000000000000000000000000000000000000000000000000000000000000000000000000000000000000000000000200608000000000000000000000000000000000000000000000000000000200608000000000000000000000000000000000000000000000000000000000000000000000000000000000000198657200656000000000000000000000000000000000000000000198657000000000000000000000000000000000000000000000000000000000000000000000000000000000000000000000000000000000000000000000000000000000000000000000000000000000000000000000000000000000000000000000000000000000000000000000000000000000000000000000000000000000000000000000000000000000000000000000000000000000000000000000000000000000000000000000000000000000000000000000000202207199207199206201205201204202204203205203208201209199209199207199206202205203205203208202209202210199209199209199207202207203208202209201209201212199211199210199209202210201209202211202212200211200211199211199210200210202211202212201212201216199214199214200212201212201213202213202214200217200217199214199214201213202213202214202217201219200219199218200217200217202217202218203219200220199219200219199218200218202218203219201220))
 (.node 1 (.leaf 200225199224200224200223200223202223202224202225201227199227199226199224200225202225201226201227200231199232199231199230201229202229202230203232200233199233199232199231201230202230203232202232200235200233199233199232200231203232202232202235201236200236200233199233200233202232202235202236200236199236200236200233200235202235202236201236200238199238199237199236200236201236201236202239200239199238199238199237201236201236202239201239200241199240199240199238200239201239202239201241201247199245200244200243201243201244202244202245201248199246199245200244201244202244202245201248200250200249200248199248200248201248202248202251200250200250200249200248201248202248202251202252201253199252200250200249200250202251202252201253200253199254199252200250200250202252201253201253200255199255200253199254200253201253201253201255201258200258200255199255200255201255202257201258201263200263199260199259200260201260202260201263200263199263200263199260201260202260201263202262200266200265200264199264200264202263201264203265202269199268200266200265200266203265202268202269201270199269199268200266201266202268202269202270200270199270199269199268202269202269202270202271202273199273199270199270200270202271202272202273201274200274199273199270202271202272202273201274200275200275200274199273202273202273201274201274200278199278200278200275200276202275201276201278201281201281201280199278200278201278201280201281202284201284200283201281202282202282202283203284202285199285201284200283202283202283203284000000000000200287201286199285202285000000000000000000)
 (.leaf 201393199392199391200389200389201389201390201393200392200392199392199391200391201390201393201393200397199397200397200394200394201395202395201397200400199399199397199397200397201397202399202400200401199400199399199397200398202399202400202401200402199401199400199399200400202400202401202402200402199402199401199400200401202401202402202403201404199403199402199401200402202402202403201403200406199406200405199406200405203405203406203406200409199408199406200405201405203406203406202407200409199409199408199406200406203406202407201409200413199414200413199411200410201411202411201414200414199414199414200413200413202411201414201414201417200417200414199414200414201414202416201417200417199417200417200414200414202416201417201417202419201419201417199417200417201417203418203419202421201422201421201419202419203419203419203420202425201425200423201423201422202422203425203425201428200428200425201425202425203425202425201427202430200429201428201428202428203429203429203430202431200430200429201428202428203429203430203431202432199432200430200429202430203430203431203432201434199434199432200430202431203431203432203433201435199434199434199432202432203432203433202435202437200438199437200436202435202436202437202438202438200439200438199437202436202437202438201439201440000000200439200438202437202438201439202440000000000000000000000000200440000000000000000000000000000000000000000000000000000000000000000000000000000000000000000000000000000000000000000000000000000000000000000000000000000000000000000000000000000000000000000000000000000000000000000000))))
 (.node 4 (.node 2 (.node 1 (.leaf 203208202207202205201204202204000000204205203206201209202210201209202207203208203206204209202209202217200217201216201213202213203213203216203217202218200218200217201216202214203216203217204218202221201221200220201219203219203219204220203221202222201222201221200220201220204220203221203222203232200231201230201229202229203229204230203231202235200235200233200231203232203231204233204233202236201236200235200233202232204233204233202236202239200238201236200236201236202236202236203237201239200239200238201236201236202236203237202239201248201248201247201244202244202244203245203248201248200248201248201247202245203245203248202249201255200255200253200253201253202253202253203254201258201258201257200255201255203254202255202258201263201263201260200260201260202260202260202262201264201264200264200263202262202262203263203264203265200266201264200264202263203263203264204266)
 (.leaf 202268201266200266201264201264203264204266203268202269202269201266200266203265204266203268203269201275200275200275201274201274202273203273202275201276201276200276200275201275202275202277204278201280201280200278201276201276204278203279203280201281201281201280200278201278203279203280203281202282202282201281201280201280203280203281204281202283202283202282201281201281203281204281203283201390200391200389200388201388202388202389203390201393201393200391200389201389202389203390202392201397200397200395200394201395202394202395203396202399200398200397200395202395202395203396202399202400200400200398200397201397203396202399203400203405200405200404201404201403203404204405204405203406201405200405200404201404204405204405203405203406200406201405200405203405204405203405203406201409200409200409200406203406203406204408203408201410200410200409200409202407204408203408204410201411200410200410200409201409203408204410202411201414200413200413200410201411202411203411202413202416200414200414200413201414202413203415203416201417201417200414200414201414203415203416202416203418201417200417201417201417202416203416203417203419202419201417200417201417203416203417204419203425201425201422202421202421203421204423204424203425202425201425201422202422204423204424203424201427201428202425202425203425203424203425202427203430202430202428202428203429204428204428203431202435201435201434202432203432203433203434203435202436202435201435201434203433203434203435202435000000200440201440202438201439202438203440000000000000000000000000000000000000000000000000000000))
 (.node 1 (.leaf 204209202209203208203205204205000000205206205208204210202211201209202209204209205208205210204211202211202212202211201209202209205210204211203211202213201213201212202212202211203211204211204214203217202217202214202213203213203214204214203217204220201220203219202218204218204218204219205220203222202222202221201220204220205220204221205221204230202230202229201229202229203229203229204230204233202235202232203232203231204231204232205233202236202236202235202232204233204232205233204234202236201236202236202235204233205233204234205235202236201236201236202236202236204234205235203237202241201241202239201239202239203239204241204242202242201242201241202239202240204241204242203242202244202244201244201242202243203243203243203245203248201248202245202244202244203245204245203248)
 (.leaf 202249201248201248202245203245204245203248203248202250202251202248201248202249203248204248203251202252202252202251202248202250204248203251204252202253201253201253201253202253203252203252203254202258201258202257201255203254203255204255203258202258201258201258202257202255204255203258203258202262201263202260201260202260203260203262203262203268202268203265201264203264203264205265204266203269202269202268203265204266205265204266204269202273201274202273202272202272204270204273203273202275201275201274201274202273203273203273204274202277202275201275201274203273203273204274204277204278201276202275201275202275204274204277205277203279201278201276202275202277204277205277204279203280201280201278201276204278205277204279205279204284203284202283202282204281205281204283205283202389201389201388202387203387204387203388203390202392201393201390201389202389203390203390203392202394201395201394201393202393203393204395203395202399202399201397202395202395203395203398204399203401202401202400202399202399204399205400203401203404201403202403202402204402204402204403204404204408202407203406203406203405204405205407205409204410201410201409202407204408205409205409205409202411201411201410201409203408205409205409205410202413201414202411201411202411205410205413205413203415201414201414202411203411205413205413204415203416202416201414201414202413205413204415205416204423202422202421203420203420203420204423205424204424203425202422202421203421204423205424205424202427201427202425203425203424204424204425204428204428203429201427202425203425204425204428205429)))
 (.node 2 (.node 1 (.leaf 204428203429203429201427202427204428205429205429202438201439202438202437202437203436204438204439203440202440201439202438202437204438204439203440000000000000202440201439202438204439203440000000000000000000000000000000000000000000000000000000000000000000000000000000000000000000000000000000000000000000000000000000000000000000000000000000000000000000000000000000000000000000000000000000000000000000000000000000000000000000000000000000000000000000000000000000000000000000000000000000000000000000000000000000000000000000000000000000000000000000000000000000000000000000000000000000000000000000000000000000000000000000000000000000000000000000000000000000000000000000203625203627000000000000000000000000000000203627000000000000000000000000000000000000000000000000000000000000000000000000000000000000000000000000000000000000000000000000000000000000000000000000000000000000000000000000000000000000000000000000000000000000000000000000000000000000000000000000000000000000000000000000000000000000000000000000204643204644000000000000000000000000000000204643204644000000000000000000000000000000000000204644000000000000000000000000000000000000000000000000000000000000000000000000000000000000000000000000000000000000000000000000000000000000000000000000000000000000000000000000000000000000000000000000000000000000205206203206204205000000000000000000000000205206205208204209203206204205000000000000205206206207205210202209204209203206205206205206206207204209203214203213202213203211204211204212205214204214203217203217203216203213203214204214204214205217)
 (.leaf 204218204218203217203216204214204214205217204218204219203219204218203217203217205217204218204219203225202226203225202224203224204223204225205226203228202228202227202227203226204226205228204228205235202236202236204233205233205233206235206235203237202236202236202236204234206235206235206236204241202240202239203237203238204237204238204241204242202241202240202239203239204238204241204241203243202243202243202242203242204242204242204244203248203248203245202244203245204244204245204247203251202250202250202249203248204248205248204251204252202252202250202250204248205248204251204252203255203254202253202253203252204253204253204255203258202258202255203254203255204255205257204257203262202262202260202260203260204260204260204262203264203264203263202262203262204263204263205264205265204266203264203263204263204263205264205265204269203269203268204266205265205265205266205269204270203270203269203268204266205266205269204269204273202272202272203271203270204270205272205273203273202273202272202272204270205272205273204273204277202277202275203273203273204274205274204276205281204281203281203280205279205280205281205282205283204284203283204281205281205282000000000000000000000000000000000000000000000000000000205386203388202388203387000000000000205386204387205388203390202389202388203387204387204387205388205389203390203390202389202388203388205388205389206391203392202392203390202389203390205389206391206392203393202393202392203390203390206391206392206393204395203395202393202392203392206392206393204394203398203396202395202394203395204395204395205398))
 (.node 1 (.leaf 204399202399203396202395203395204395205398204399205400203400202399203396203398205398204399205400204402204402203401203400205400205400205401205402204403203403204402203401203401205401205402206402205407203406203405204405205405206405205405206406205409204408203406203405204405205405206406206408205409204410203408204408205409206408206409206409205413203411202411204410205409206409205410206413205413202413203411202411205410205410206413206413204415203415202413203411205413206413206413206414205416203416203415202413205413206413206414205416203417203416202416203416205416205416206416204417203420203420203419204419204418204419204419205420204423203421203420203419204419204419205420204423205424204423203421203420203420205420204423206423204428202427203425203424204424205424205427205428205429204428202427203425204425205427205428205429203430203431204428204428205429205429206429204430203434203434203433203432203432204431205433205434204435203435203434203433203432205433205434204435204436202435203435203434203434205434204435204435204439202438202437202437203436204436204438205439000000000000000000203440203440205440205441000000000000000000000000000000000000205441000000000000000000000000000000000000000000000000000000000000000000000000000000000000000000000000000000000000000000000000000000000000000000000000000000000000000000000000000000000000000000000000000000205459000000000000000000000000000000000000205459000000000000000000000000000000000000205459000000000000000000000000000000000000000000000000000000000000000000000000000000000000000000000000205620204622)
 (.leaf 203627000000000000000000000000204624204625204628000000000000000000000000203625204625204628204628000000000000000000000000000000204630206631206632000000000000000000000000000000206631206632000000000000000000000000000000000000206632000000000000000000000000000000000000000000000000000000000000000000000000000000000000204644204645000000000000000000000000000000000000000000000000000000000000206207205208205206000000000000000000000000206207205211204211205210205208206207206207207208207210204214203214204214204211204212206213205212205214204218204218203217204214204214206214205215205217205220205220204219204218204218205217206219205219204225203225203224204223204222205222206224205225205226203225203225203224204223206224205225205226206236203237205235204234206235206234206235206236204238203239203238203237206236206236205237207238204241204241203239203238204237205237207238205240204242203242204242204241204241205240205242205242204251203251204248203248204248205248206248205250204253203252203252204252204252205251205253205253204257203258204255203255204255205255206257205257204260203260203259203258204258205258206258206259204260203262203260203259204259206258206259205262204262203262203262203260204260206259205262205262205269204269204266205265205265206265206266206269204269204270204269204266205266206266206269206270205272204270203270204270204269206270206271206272205273204273204270203270204270206271206272206273205278205277204277204274205274205275207276205277000000000000000000205283000000000000000000000000000000000000000000000000000000000000000000205386)))))))
 (.node 32 (.node 16 (.node 8 (.node 4 (.node 2 (.node 1 (.leaf 204387204387000000000000000000205386206386206387206391203390203390203388205388205388207390207390206392203392203390203390205389207390207390207392206393203393203392203390206391207390207392207393204394204395203393203392206392207392207393205395204395203395204395203393206393207393205395205395205398203398203395203395204395205395206397207397204399204399203398203395204395206397207397207399205401203401205400204399204399207399206400206401206405204405204404204403206402206403207404206405206406205407204405205405206405206406207406207407206409205409205409205407206406207407207408206408206413205413205410205409206409207410207411206413206413205413205413205410205410207411206413207412205416205416204415205413206413207412207414207415206416203416205416204415206414207414207415206415204418204417203417203416206416206415206416205418204419204419204418204417204418205418205420207421204423204423203420204419204419207421207421207422206423205424204423203420205420207421207422206422206423205424205424204423204423207422206422206423205427204425204424205424206423206423205424206427205428204428204425204424205424205424206427205428204431203432203430205429206429207429206429206432205433203432203432203430204430206429206432206433205434203434203432203432204431206432206433205433204438204438203436204436204435206436205437205438000000000000000000000000000000000000000000000000205459000000000000000000000000000000000000206457000000000000000000000000000000000000206457000000204622000000000000000000000000000000206620205622204628000000203627203625204625205626205628207629)
 (.leaf 204630000000000000000000204628207629205630205630206632000000000000000000204630205630000000000000000000000000000000000000206631000000000000000000000000000000000000000000206632000000000000000000204645204644204643000000000000000000207644206644000000000000204644204643205643207644206644206645000000000000000000204644204645206644206645000000000000000000000000000000000000206645000000000000000000000000000000000000000000000000000000000000000000000000000000000000000000000000000000000000207208204209206207205206000000000000207207208208207210205211204209206207206207207207208208207211205211204210205211204209207208208208207211207212206213204212204210205211207210207211207212206212206219204219204218205217205215206215206216206219205219205220204219204218205217206216206219206219205222204222205222205221205221207219206220206223206224204223204222205222205221206220206223207224205229204229204228205228205227207228207229206229207238204238204237206236206236206237206237207238205240204241204238204237205237206237207238206241205242204241204241204238207238207238206241206241205245204244204244204242205243206243206245206246205250204251205248204248205248206247206248206251205251204252204251205248206248206248206251206251205254204253204253204252205253206252206254206254206257205257204255204253205254206254206254206257205257204257205257204255205255206254206257206258205262204260204260204259206258206258207259206262205262204262204260204260206259207259206262206263206269205269205266205265206265206265207268207269206270204269205269205266206266207268207269206269))
 (.node 1 (.leaf 205275205274204274204273205273206273207273208276207276204276205274204274205273207273208276208277205277205278204276205274205275208276208277207278205278205279205278204276207276208277207278207279206280205280205279205278205277207278207279208280206281205281205280205279205278207279208280207281000000000000000000000000000000000000000000000000207390205389205388204387206387206387206388208390207390206391205389205388205388206388208390208391206397204395204395204394205395206394208394207397207397205398204395204395205395208394207397208397206400205400204399205398207397208397208399208400206401205401205400204399207399208399208400207401206406206405206405205404207404208403207405208406207408206408206406205405207406208406208407208407207411205410206409206409206408207408207409208411206413206413205410206409207410207409208411208412207412206413206413205410207411208411208412208412205418204418204417206416206415208415207418208418205420204419204418204417206416207418208418208418207421204419204419204418205418208418208418208420207421205420204419204419205420208418208420208420207422204423205420204419207421208420208420208421206427205427205424206423206423206424207424206426207429206429205429205428205428207428207429208430206432204431204430206429207429208430208430207432206433205433204431204430206429208430207432206432206436204435204435205434205433207432206435208436206439205439204438204436205437208436207438207439206440205440205439204438205438207438207439206440000000000000000000000000000000000000000000000000000000000000000000000000000000000000000000207456)
 (.leaf 205459206457206458207460000000000000000000000000000000000000207460000000000000000000000000000000000000000000000000000000206620205622204622205620000000000000206620206620207621205623204623204622205620206620206620207621207622205624204624204623204622205622207621207622208623205625204624204624204623205623207622208623208625205626204625204624204624205624208623208625207625205628204628204625204624205625208625207625207628207629204628204628204625205626207625207628207629205630204629204628204628205628207628207629208629205630204630204629204628207629207629208629208631000000206631204630204629205630208629208631000000000000000000000000206632000000000000000000000000000000000000000000204645206644207644206645000000000000000000000000000000206645206645000000000000000000000000000000000000000000000000000000000000000000000000000000000000000000000000000000000000000000000000000000000000000000000000000000000000207211207210207208206207207207209208209209208209206213205214205212206213206212207212207214207215206219206219205217205215206215207215207216209219206219205219206219205217206216207216209219209219206223205222205221205221207219207220207220208223207224206224205222205221206220207220208223209224207225205225206224205222206223208223209224207225206231205232205231205230206230207230207230207232206236206235206234205234206233208233207234207236206237205237206236206235206236207236207236208237206241205242205240207238207238207239208239207241206243205243205242205242206241207241207243207243206246205246205245205244206245207244209244209246)))
 (.node 2 (.node 1 (.leaf 206246205247205246205245206246209244209246207247206248206248205248205247206246207247208247209248206251205251205250206248206248209248207249208250206252205253205251205250206251207249208250207253206254205253205253205251206251208250207253207253206257206257205255205254206254207254208256207256206263205262205262206259207259207260208262207263206263205263205262205262206262208262207263207263206265206264205264205263206263207263207263208266206265206265206264205264207263207263208266207266207269206269206266206265206265207266208266208269208276205275205273205273206273208272207273208276208277207276205275205273207273207273208276208277207279205278205277207276208277208277207278207278207282206282206281206280208280208280208281208282000000000000000000000000000000000000000000208384206385205386000000000000000000000000208384208385206386206386205386000000000000208384208385207387206388205388206387206386206386207387209389209390208390207390205388206387206387209389209390209390208392207392207390207390208390209390208390209393208394205395205395207393208393209394209394209395207397206397205395205395206394209394209395209397208397207397206397205395208394209395209397209398208400206400207399207397208397209398209398209399207402206402206401206400208400209399209400209401208414207414207412206413208412209412209412208413207418206416206415207415208414208414208417209417208418205418206416206415208415208417209417209418208420207421205420205418208418209418208420209420208420207421207421205420208418208420209420209420206424206423206422207422208421208421208424209424)
 (.leaf 206426206427205424206423206424209424209425209426207428205428206427205424207424209425209426207427207432206432206429207429208430207429209430207432206432206433206432206429208430209430207432207432206435205435205433206433206432207432209434208435208436206436205435205433207432209434208435208436208436205437206436205435206435208435208436208437207438205438205437206436208436208436208437207438207439206439205438205437208436208437207438208439000000000000206441206440206440208440208441000000000000000000000000000000000000000000000000208455206458206457000000000000000000208455209456208459207460000000206457000000207456209456208459208460000000000000000000206457206458208459208460000000000000000000000000000000000000000000000000207613000000000000000000000000000000207614000000000000206620206620000000000000000000000000207619207621208623205624205623205622207621207622208622209623208625205625205624205623207622208622209623208624207628205628205626205625208625208624209626209628207629207629205628205626207625209626209628209628000000000000205630205630208629209629209630000000000000000000000000205630208631209630000000000000000000000000000000000000000000000000000000000000000000000000000000000000000000000000000000000000206643207644000000000000000000000000000000208643206645206645206644207644206643208643208644208645000000000000206645206644207644208644208645000000000000000000000000206645206645208645000000000000000000000000000000000000000000000000000000000000000000000000000000000000000000000000000000000000000000000000000000000000000000000000000000000000))
 (.node 1 (.leaf 209208207207000000000000000000000000000000000000207212207212207211208208209209210209209209210211207212206212207212207211208209209209210211210211207214206213206212207212207212210211210211210213207215207214206213206213207214210213208213208215209219206219206216206215207215208216209216210219209219206219206219206216207216209216210219210219207220207219206219206219209219210219210219210220207220206220207219206219209219210219210220210221208223206223206220207219207220210220210221208222207227206226206225207225207225208224208226208227207229206229207229207228207228209228208229208229207230206230206230206229207229208229208229208231207236206237206236206235207234208235208235208237207239207238206237206237207236208237209237208239207241206241206241207238207239208239209239209240207243206242206241206241208239209239209240210241207243206243206242206241207241209240210241209244207244206245206243206242207243210241209244210244209244206246206245206243207243209244210244210245209246206246206246206245207244210244210245210245207247206246206246206246209244210245210245210247209248206248206247206246207247210247209247209248207249206251206248206247208247209247209248209251207253206252206251206251207249209251209252208253207253206254206252206251208250209252208253209254208256206254206254206254207253209254209255209256)
 (.leaf 207256206257206254206254207254209255209256208256207258206258206258206257207256208256208258208258207260207259206258206258207258208258209258209261208262206262207259206258207259209258209261208262207263206263206262207259207260209261208262208262207270206269207269207268208266208267209269209270207273207273206273207273207272208272209272209273208276208276207273206273208272209272209273208276208277208277208276207273207273209273208276209277208281207281208280207279207278208278208280209281209389206387206386206385208385210385208386209389209390206388206387206386207387208386209389209390209390208390206388206387209389209389209390210390209397207397208394206394209394210394210395210397209398208397207397208394209395210395210397210397209399208400208399208397209398210397210398209400208403207403207402207401209400209401210402209403209404208403207403207402209401210402209403209404209405208406207405208403209404209404210405210405209412208411207409207408207409209408209409209412209417207418208415208414208414208415209417209418209420208420208418208418209418209419209420210420208424206423208421208420209420209420210422209424209424206424206423208421208421210422209424209425209426206426207424206424209424209425210425209425207427207428206426207424209425210425209425210427207428207429207428206426209426209425210427210428207429208430207429207428207427210427210428208429209434207432206432207432207432208431209433209434208435206435207432206432207432209433209434208435208436208436206435207432209434209434208435208436209456207456000000000000000000000000209455210457))))
 (.node 4 (.node 2 (.node 1 (.leaf 208459206458207456000000208455209455210457210458208460207460206458207456209456210457210458209460000000000000000000000000000000000000000000000000000000000000000000000000000000000000000000209613207613000000000000000000000000000000209613208613000000000000000000000000207613208613209615208615000000000000000000000000000000000000000000000000207619206620000000000000000000000000000000209619207621206620206620000000000000000000209619209620207622207621206620206620207619209619209620209623209628207628207625208625208624209626209627209628209628207629207628207625209626209627209628209629209629208629207629207628209628209628209629209630000000000000208631208629209629209630000000000000000000000000000000000000000000000000000000000000000000000000000000000000000000000000000000000000000000000000000000000000000000000000000000000000000000000000206645207644208644209644209645208647000000000000000000000000000000208648000000000000000000000000000000000000000000000000000000000000000000000000000000000000000000000000000000000000000000000000000000000000000000000000000000000000000000000000000000000000000000000000000000000000000000000000000000000000000000000000000000000000210211207212208209209209210209000000211210211210210211207212207212208209209209211210211210210213210213207214207212207212210211211210210213211213208213207215207214207212210211210213211213211213208215207215207215207214210213211213211213211215208216207215207215207215208213211213211215209216210219209219207216207215208216209216211216210219210219209219209219207216209216211216210219210220)
 (.leaf 210221207220207220209219210219210220211220211221208222208223207220207220210220211220211221210223210224209224208223207220210221211221210223210224208224207225209224208223208222210223210224209224208227207227207226207225208224209224209224209226208229208229207228207227208227209226209228210229208232207232207230207230208229209230210230209232210241207243207241208239209239209239210240211242209244207243207243207241209240210240211242211244210244207244207243207243210241211242211244211244210245209246209244207244210244211244211244210247209251207249209248208247209247209248210250210251209252208250207249209248209248210250210251210252209255207254207253207253208253210253210254209255209261207260207259207258208258209258210258209261208262208262207260207259209258210258209261210260208264207263207263207263208262209262210262210263208265208266207263207263208263210262210263209265208267208266207266208266208265209265210267211267209269208269208266207266208266210267211267209269209270207270208269208266208267211267209269210270208272207272208272208271208270211270209272209272208276208276207273208272209272209272211275211275209277208277208276207273209273211275211275210277208277207278208277208276208276211275210277210278208280208280207278207278208277210278210279211280209281208281208280207278208278210279211280209281000000208282208281208280208280211280209281210282210385208385208384000000000000000000210384210385208386207387208385208384209384210384210385211388209389209389207387208385210385210385211388210389209390209390209389207387208386211388210389211390))
 (.node 1 (.leaf 210391209393208390209390210390211390211390211391210393209394209393208390210390211390211391210394210397209398209397209395210395211395211396211397209404209404208403209401210402210402211403210404209412209412208409207409209408209408210411211412210411209412209412208409209409210411211412211412208414208413209412209412210411211412211414211414208415208414208413209412209412211414211414211415209417208417208414208413208414211414211415210415209418209417208417208414208415211415210415211418210422208421209420209420210420211421211421211423209424208424208421209420209420211421211423211423209425209424208424208421210422211423211423210425210428207428207427209426209425210425211427211427208429207429207428207427210427211427211427211429210430209430207429207428210428211427211429211429209433207432207432209430210430211429000000210433209434209434207432207432208431000000210433209433208437208437208436208435208435209434210436211437208438207438208437208436208436210436211437211438209439208439207438208437208437211437211438211438209440208440208439207438208438211438211438211440000000000000000000208441210441210441000000000000000000000000000000000000000000000000000000210454210458208459209456208455209455209455211456210459209460208460208459209456210457211456210459000000000000000000208460208459210458210459000000000000000000000000000000000000000000000000000000000000000000000000000000000000000000000000000000210610209613000000000000000000000000000000210610209612208615000000207614207613208613209613210613210616000000000000000000000000000000000000209616000000)
 (.leaf 209616000000000000209623207622207621207619209619210619210620210623208623208622207622207621209620210620210623209623209627209626208624209623209623209624209626209626208647000000208645208644209644210644210645209647000000000000000000000000208648209648210648000000000000000000000000000000000000210648000000000000000000000000000000000000000000000000000000000000211210210211209209210209000000000000000000000000211213210213210211210211211210000000212212212213211215208215208213210213211213212213212214212215209216208216208215208213211213212214212215211215211216209216208216208215211215212215211215210217210220210219210219209216211216210217211219211220209226208227208226208224209224210224210224211227209228209228208227208226209224210224211227211228210229208229209228208227209226211227211228211229209229208229208229209228209228211228211229210230209232208232208231208229209230210230211230210232209236208235208235208234209234210233210234210236209239208239209237208237209237210237210237210239211244209244210241209240210240210240211243212244211244210244209244210241211242211243212244212244211247210247210245210245211244211244212246212247210250209248209247210247211247212247212247212248210251209251209248209247209248212247212248212250209257208256209256209255209255211255211256210256209261209261209258208258209258210257211258210260209262208262208262209261209261210260210260212262209265208265208264208263210262212263212264212265210267208266208265208264210263212264212265211267211267208267208266208265209265212265211267212268)))
 (.node 2 (.node 1 (.leaf 210270209270209269208267211267212268212268211270211270208270209270209269209269212268211270211271211275208276209273209272209272210273211273211276210277209277208276209273211275211273211276210277210278208277209277208276211275211276210277212278210282000000209281208280211280212280211281211282000000000000000000209281209281211281211282000000211388208386210385209384210384210385211385212387210389209389208386210385210385211385212387212388211390209390209389208386211388212387212388212389210394210393210391210390211390212391212392212393211397210397210397210395211395212395212396212397210401209401209400210398211398212398211400211401210405210405209404209403211403211403212403211405209408209408208408209406211407212406212408210409211412209412209409209408209408210409211409211412211414209412210411209412211412211412211413211414211414208414209412210411211412211413211414211415211415208415208414209412211414211414211415211416211418209418209417208415211415211416211417211418211419209419209418209417210415211417211418211419210420209420209419209418211418211418211419211420211421210420209420209419211419211419211420211421211423210422209420210420211421211421211422211423210425209425209424210422211423211423211424211425211426210425209425209424211423211424211425211426211427210427209425210425211426211426212427212427211429210430208429210428211427211427212429210431209433209434209433208431000000210431212432211434210436208436208435209434209433211434212434212435211437208437208436208435209434212434212435211437211438209439208438208437211437211437212437212439)
 (.leaf 211440209440209439208438211438212437212439211440210441210441209440209439211438212439211440000000000000000000210441209440211440211440000000000000211456210457209455000000210454210455210455211456000000000000000000209460000000000000000000000000000000000000000000000000000000000000000000000000000000000000000000000000000000000000000000211609209612209613000000000000000000211609210610211613209613208613209613000000210610210610211613210613210616208615209615208613209613210613211615210615000000000000000000000000000000210616210616210618210623209623209620209619210619210620210620211621209623208623209623209620210620210620211621211622209631000000209630209629209629210628210630210630000000000000000000000000209631210630210632211633209647208647209645209644210644211644211645211646209648208648208647209645210645211645211646210648000000000000000000208648209648210648210648000000000000000000000000000000210648210648000000000000000000000000000000000000000000000000000000000000000000000000000000000000000000000000000000000000000000000000000000000000000000000000000000000000000000000000000000000000000000000000000000000000212212210213211210211210000000000000000000000000212213211213210213211210000000000000000000000000212215211215211213211213212213000000213214213214211219210219211216209216211215213215212216213218211220210220210219211216210217212216213218212220210224210224210223211221212221212222213222212222210224209224210224210223210222213222212222211224211228209228209226209224210224211225211225212228210233209234209233209232210232211231211232212233))
 (.node 1 (.leaf 210237209237209236209235210234211234211235211237210239209239209238209237210237211237211237211239210240210240209239209239210239211239212241212242211243211242210240209239210239212241212242213243212246210247211244211244212244213244213245213246212247211247210247211244211244213245213246213247212248210250209248211247212247213247212247212248212250210251210250209248212247212247212248213250212251210252210251210250212248212248213250213251210252210253210252210251212250213250213251211253211254210254210253210252212251213251211253212254210260209261210258209258210257211257212258213260210260210260209261210258211258212258213260213261212262209262210260209261210260213260213261212263212263210262209262210260210260213261212263213264212264210263210262209262212262212263213264213264212265209265210263210262212263213264213264212266211267210267209265210263212264213264212266213267212268211267210267209265212265212266213267212268211270210270209269211267212268212268212269211270211271211270210270209269212268212269211270212269211276211275211275209272210273211273213275213275210278210279210278210277210277213276212278212279212280211280210279210278212278212278212279212280211281209281211280210279210278212279212280211281000000000000000000000000000000000000000000000000212387211388210385210384210385212384212385212386212388210389211388210385211385212385212386212389212390211390211390210389212388212389213389213390212393210394211391211390212391213391213391213393212394211395210394211391212392213391213393213394212395211395211395210394212393213393213394213395)
 (.leaf 211401210401210400211398212398213398212400212401212405210406210405210404212403212404213404212406210409209408210407211407212406212406213407213408211412211412210411209408210409213408213410212412211413211412211412210411211409213410212412211412212429211429211427211427212427213428213428212430210431000000211429211429212429212430213430212430212432210433000000211429210431213430212430213433211434209433210433000000210431212430213433213433212434209434209433210433212432213433213433213433211437211437210436209434212434213433213436213437212437211438211437210436212435213436213437213438000000210441211440211438212439213439000000000000210454000000000000000000000000211451211452211454211459210459211456209455210455211455212456212459000000000000210459211456211456212456212459000000000000000000000000000000000000000000000000000000000000000000000000000000000000000000000000000000000000000000000000000000000000000000000000000000000000000000000000000000000000000000000000212608210610210610000000000000000000212608212609212610211613209612210610000000211609212609212610213612210613209613209612210610210610212610213612211613210616209616000000210616210615211615211617211617210620000000000000209616210616211617212619211619210620210620210619000000210620211619211619212622210624209624209623210623211621211622213623212623210625209626209624209623211622213623212623211625211633000000000000209631210630211630211632211633000000000000000000000000000000211633000000000000210643210643000000000000000000000000212642212643210648209648209647210645211645212645212646212647)))))
 (.node 8 (.node 4 (.node 2 (.node 1 (.leaf 210648210648209648209647211646212646212647212648000000000000210648209648210648212647212648000000000000000000000000210648210648212648000000000000000000000000000000000000000000000000000000000000000000000000000000000000000000000000000000000000000000000000000000000000000000000000000000000000000000000000000000000000000000000000000000000000000000000000000000000000000000000000000000000000000000000000000000000000000000000000000000000000213218211219210217211215213215214216214216213217212220211220211219210217212216214216213217213218212221211221211220211219213218213217213218212220211224210224210224210222213222214222212222213225211225210224210224210224212222212222213225212225211229211229211228211227211225212226212226212229211235210236210234210233212233212234212234213235211237210237210236210234211234212234213235214236211237210237210237210236211235213235214236214238211239210239210237210237211237214236214238213240212241210239210239210237211237214238213240213241212242210240210239210239211239213240213241213242213244212244212244211243213243213243214243213245213246212246211244212244213244213245214245214245213250212250212248212247212247214247213248213249212254211254210252212251213251213250213251213254211255211255211254210252211253213251213254212254211256210256211256211255211255212254213254212256211257210257210256210256211256212256212256212258213260210260211258210257211257212258214259214260213261210260210260211258212258214259214260214261212263212262210260210260213260214260214261214262212269212268212268211267213267213267214267212268)
 (.leaf 213270210271211271211270211270212269213269213270211272210272210271211271212269213269213270212272213275211273210273210272211272212272213274213275213275211276211273210273211273213274213275213276213276210277211276211273213275213275213276212277212278212278210277211276213275213276212277212277000000000000211282211281211281213281000000000000000000000000000000000000000000000000000000000000211384211383000000000000000000000000000000212384212401211401211400212398213398214399213400213401213407212408212406212406213407213407214408214408213410211409210409212408213407214408214409214410212412211412211409210409213408214409214410213410211412211413211412211409213410214410213410212412211414211415211414211413211412212412214412212414213416211417211416211415211414212414213416213417211418211418211417211416211415213416213417212417211419211420211419211418211418212417213417212420211421211421211420211419211418213417212420212421212425211425211424211423211422213423212424213425213428212427212427211426213426213426212427213428212430212429211427212427213428213428213429214429213433212432210431210431213430214430213430214433213433212434211434212432213433214433214434214435213438212437211437212435213436214435214437214437000000211440212439212437213438214437000000000000000000000000000000211440000000000000000000000000000000000000000000000000000000000000000000213448211450000000000000000000000000000000213448213449211451000000000000000000000000213448213449212452211451000000000000000000211450213449212452212452212459211459211456210455211455212455214458213459))
 (.node 1 (.leaf 211459211456212456214458213459000000000000000000000000000000000000000000000000000000000000000000000000000000000000000000000000000000000000000000000000000000000000000000000000000000000000000000000000000000000000000000000000213607213612211613210610211609212609212609213610214612211613210613211613210610212610213610214612212614211614211615210613211613213612214612212614212614211617210616210616210615211615212615213617212617211619210620210618210616211617212617212617212619212622210620210620210620211619212619213621212621211625210625210624211622213623213622214625214626211626210626210625210624212623214625214626214626211627210627210626210625211625214626214626214626211628210628210627210626211626214626214626214627211629210630210628210627211627214626214627214628211630210630210630210628211628214627214628213631211632210632210630210630211629214628213631212632211633211633210632210630211630213631212632212632000000000000000000211633211633212632212634212634000000000000000000000000000000212634000000000000000000000000000000000000000000000000000000000000000000000000000000000000000000000000000000000000000000000000000000000000000000000000000000000000211644211644210643211642212642213642212643213644000000000000210648210648212647213647212648213649000000000000000000210648212648212648213649000000000000000000000000000000000000213649000000000000000000000000000000000000000000000000000000000000000000000000000000000000000000000000000000000000000000000000000000000000000000000000000000000000000000000000000000000000000000000000000000000000)
 (.leaf 214216212216213215213214000000000000000000215217212220212221212220213218213217215217215218214221213222212222212221212220213218215218214221214222214222213222212222212221212220214221214222215223213225211224212222213222214222215223215223215224212225211225211224212222212222215223215224215225212230211229211229212228212226213227213229213230212234211234212233211232212232213232213233213235214236211237211235211234212234213235213235214236214238211237211237211235213235213235214236214237213240211239211237211237214236214236214237215238213241212241211239211237214238214237215238213241213254212254211253213251213250214250214251213254212254211255212254211253213251214251213254213254212256211256212256211255212254213254215256215256212256211257211256212256213254215256215256214258212258211257211257211256212256215256214258215259214259212258211257211257212256214258215259215259214260213260212258211257212258215259215259215260214263213264212263213261214261215261215262215262214263213264213264212263214262215262215262215264213267213267212266213264214263215264215264214267214267212268213267212266214265215264214267214268212269211270212269212268214267214268213269213269212272211272213270212269213269213270214270214271213274211273211272213270213270214270214271213274)))
 (.node 2 (.node 1 (.leaf 213275213275211273211272212272214271213274214275212278212279212278213276212277213276215277215278214280212280212279212278212277215277215278215280213281211281212280212279212278215278215280214281000000212282211281212280214280215280214281000000212384211384000000000000000000000000000000214383212385212384211384000000000000000000214383214384212385212385212384211384212384214383214384214385214386212386212385212384212385214384214385214386213389212389212386212385212385214385214386214387214389213389212389212386214386214386214387214388214392213393213391213391214391215391215392215393214399213398213398213396214396215397215397215398213401212401212400213398214399215398215400215400213407213407212406213404214405214405214406215406214408212406213407212406214405214406215406214408214410213410213408213407214408215409215409215410212412211412212412213410214410215410215410215412214412211414211412212412213410215410215412215414212414211414211414211412212412215412215414214415213416211415211414211414214412215414214415213416213417213416211415211414212414214415213416213416212420211419211418211418212417213417214417213419213423211422211421211421212421213420214422214423212424212422211422211421212421214422214423213424213429213428213428212427212427213426213428213429214433213433212430213430214430215430215432215432214434213433213433212430213430215432215432215433214435213436213433213433214434215433215434000000214437213437213436213433214435215434000000000000212452211451211450000000213448214448213449213452212452211451211451211450213449213449213452213452)
 (.leaf 212454211455211454211452212453213453213453213455214458212456211455211455212454213455214457214458213459212459212456211455212455214457214458214459000000000000212459212456214458214458214459000000000000000000000000000000000000000000000000000000000000000000000000000000000000000000000000000000000000000000000000000000000000000000000000214606000000000000000000000000000000000000214606000000000000000000000000000000000000214606000000000000212609212609212608000000213607214607214608214609214612213612212610212609212609214609215612215612212614211614211613213612214612215612214612213615212615211615211614211613212614214612213615214616212617211617211617211615212615214616215616213617212619211619212619211617212617213617213617214618213621211619211619212619212617213617214618214621212621212622211619211619212619214618214621214622214626211625212623213623213622214624214625215626214626211626211625212623214625214625215626215626214626211627211626211625214626215626215626214626214627211628211627211626214626215626214626214627214628211629211628211627214626214626214627214628213631211630211629211628214627214627214628214629212632211632211630211629214628214628214629213631000000000000000000000000212634213634213636213636000000000000000000000000000000213637000000000000000000000000000000000000000000000000000000000000212646212646212645211644213644213644214645213647212648212648212647212646212646213647214647214648000000000000000000212648212648214648214649000000000000000000000000000000213649214649000000000000000000000000000000000000000000000000000000000000))
 (.node 1 (.leaf 215217213217214216214216000000000000000000000000215218213218213217214216215217000000000000216218214221212220213218213217215217000000216218216219214222213222212220213218215218216218216219214221215224213225212222214222215223215223215224215225215225212225213225212222215223215224215225216225213226212226212225213225215224215225216225215227213227212226212226212225215225216225215227216228213229212229212226212226213226215227216228215229213230212230212229212226213227216228215229216230213230212230212230212229213229215229216230214230213241213241213240214238214237214237215238215241214242213242213241213240215238215238215241214242214243213243213242213241213241215241214242214242215244214245213245214243215244214243216244216244213254213254213251213250214250215250216251214253215256213254212254213254213254214253215255216256215256212256213254212254213254215255216256216257214258212256212256213254215256216256216257215258215259212258212256212256215256216257215258215259215264214265214263214263215262216263216264216265213270213269212269212268213269214268214270214270213274213274212272213270214270214271214273215274215277212277212277213276213276214275215277215278215278212278212277212277213276215277215278215279)
 (.leaf 215280214280212278212277215277215278215279216280214281213281214280212278215278215279216280215281215391214391213389214389214388215390215391216391215397214396213396214394214393215393215394215397215400213400214399214397215397215398215399215400214402213402213401213400215400215400215401215402214403213403213402213401215400215401215402216403215409214408214408213407215406216406216407215409215412212412213410214410215410215411215412216413214415212414214412212412215412216413215414214415213416213416212414214412215414215414214415214415213420212421212420213417214417214418214418214420214423213423212421212421213420214420215420214423214426213426213425212424213424214423215425214425213429213429213428212427213426216426216428216429215430214429213429213428213428216428216429215430215432214433213430214430215430216431216431215433215433214434214433213430215432216431215433000000000000214437214437214435000000000000000000000000000000000000000000000000000000000000000000000000000000000000000000000000000000000000000000000000213449213449213448000000000000000000215448215449213452212452213449213448214448215448215449214452213452212452212452213449213449215449214452214453214458214458212455212454213455214455214457216458214606000000000000000000000000000000000000215604000000000000000000000000000000000000215604215607215612213610212609213608214608216608214609216611215612214612213610212609214609214609216611215611213615212614212614214612215612215611216612216613214616212615212614212614214612216612216613215616215616213617212615212614213615216613215616215617))))
 (.node 4 (.node 2 (.node 1 (.leaf 214621213621212619212617213617214618216618215621214622212621213621212619214618216618215621214621214625214625213622212622213622214622215624215625213631212632213631214628214628216630216630216630213632212632212632213631214629216630216630215631213633212634212632212632213631216630215631216632213634212634212634212632213632215631216632215635213636000000212634212634213633216632215635215636213636000000000000212634213634215635215636215637213637000000000000000000213636215636215637215638000000000000000000000000213636215637215638215639000000000000000000000000213637215638215639000000000000000000000000000000000000215639000000000000213643213642000000000000000000000000214641215642213643212643213642000000214641214641215642215643213647212646213645213644213644214644215645215646000000000000213649212648214648215648216651215652000000000000000000213649214649216651215652000000000000000000000000000000000000215652000000000000000000000000000000000000000000000000216714216717000000000000000000000000000000216714216717000000000000000000000000000000000000216717000000000000000000000000000000000000000000000000000000000000000000000000000000000000000000000000000000000000216219214221215218215217000000000000000000216219214221214222214221215218216218000000216219217222215223215223214222214221216219216219217222217223215224215223215223214222214221217222217223217223216228213227213226215225216225217225216225217228216230213230213229213227216228217228216229217229214231213230213230213230216230217229217231215232214232213231213230213230214230217231215232216233)
 (.leaf 214236213235213235213233214234215234215236215237215241213241215238214237214237216237216240216241214242214242213241215238215238216240216241217242214246214246215245215244216244216244217245216246214248214247214246215245215245217245216246216247214248214248214247214246214246216246216247216248216251214251214250214249215249216249216250216251214253213254214251214250215250216250216251216252215255213254213254214251216251216251216252216255216256215256213254213254214253216252216255217256215259215259214258215256216257217257217258217258216264215264215262215262216262216261216262216263214266214267215264215264216264216263216264215266214273214271214270213270214270215269215270216271215274213274214271214270214271215270216271216274214274214275213274214271214273216271216274216275215277213276213276214275214274216275217276217276215278215277213276213276214275217276217276216278214384214384214383000000000000000000216383217384216386214385214384214383215383216383217384217385214386214386214385214384214384217384217385216386214387214387214386214385216386217385216386216389215390214388214387214386214386216386216389216390215391215391214388214387214387216389216390216391215397215397215396214393215393217393216394216395215405214405214404214403216403216403217404217404215409215409214408215406216406216407216408215408214415214415215414215412216413216413215414215414214416213416213416214415214415215414216414215416214418214417213417213416214416215416216416215418214423213424214423214422215420216420215421217423215425213425213424214423214423215421217423215424))
 (.node 1 (.leaf 216428213428213426214426214425215425217426217428216429213429213428213426216426217426217428217429215430215430213429213428216428217428217429215430216431215430215430213429216429217429215430217431215433215432215432215430216431217431216432217432000000000000000000215434000000000000000000000000000000000000000000000000000000000000000000000000214452213452213449214448215448215449217450215451214453213453213452213452214452215451215451215453214457214457213455213453214454215453215454217456216458214458214457213455214455215454217456217457000000214459214458214457214457217456217457000000000000000000214459214458216458217457000000000000000000000000000000214459000000000000000000000000215607000000214606000000000000000000216604215607214606000000000000214606215604216604215607215607216608214608214607000000214606215607215607216608214609214609214608214607216608215607216608216609216611215612214609214608216608216608216609216610216613213615214612215612215611216611216612216613215616214616213615214612216612216612216613216616215617215616214616213615216613216613216616215616216618214618213617213617214617217617216617216618215621214621214618213617214618216617216618216621214621214622214621214618216618216618216621216622215624214624213622214622214621216622216623216624215625214625214624213622214622216623216624216625216630214628214627214626215626216626216629216630216630214629214628214627215627216629216630000000216630213631214629214628216630216630000000216630216632213633213632213631216630216630215631216632215635213634213633213632215631215631216632215634)
 (.leaf 214644213644213643213643215642216642216643215645216651214649214648214647214647215647216648216651215652000000214649214648215648216648216651217652000000000000000000214649216651216651217652000000000000000000000000000000000000000000000000000000216714000000000000000000000000000000000000000000216717000000000000000000000000000000000000000000000000000000000000000000216714000000000000000000000000000000000000000000216717000000000000000000000000000000000000000000000000000000000000000000000000000000000000000000000000000000000000000000000000000000000000000000000000000000000000000000000000000000000000000000000000000000000000000000000000000000000000000000000000000000000000000000000000000000000000000000000000000000000000000000217222214221216219216218000000000000217219217220217223215223214221216219216219217219217220217223217223215224215223214221217222217220217223218223217224215225215224215223217223217223218223218223217225216225215225215224217223218223218223218225217228216228215227216225217225218225217225217228216229215229216228215227216225217225217228217229216233214232214231214230217231217231218231217233215233214233214232214231215232218231217233216234216240215238214237214237215237216237216237217240216241215241215238214237216237216237217240217241215243214243214242214242217242217242218243217244217244216244214243214242215242218243217244218245217245215245216244216244217244218245218245218245216255215255214253216251216251217251218254217255217256216256215255214253216252218254217255218256217259216259215259215258217258218258218258218258)))
 (.node 2 (.node 1 (.leaf 215267214267214266216265216264216264216265217268215268214268214267214266215266216265217268216269215269214270214268214267215267217268216269216269215270214271214270214270215269216269217269216271216274215274214273214271215270216271216271218273216275214274215274214273216271216271218273217275216278215278215277214275217276217276218277217278217279215279215278215277217276218277217278217279000000215281216280215279217279217279217280000000217384214384215383000000000000000000000000218385217385216386214384215383216383000000218385217385216389214387214386216386217385217385218387218388216390215390214387214386216386218387218388217390217393215393216392216392217392000000217392217393215398215399215398215397216395217395217396217397216400215400215399215398216396217396217397216399216403216403215402215401215401217401217402217403216406216406215405215404217404217404218405217406216407216406216406215405217404218405217406217407216412215412215411215410217408217408217409217412216413216413215412215411216409217409217412216412215416214416214415214415215414216413217414217415215418214418214416214416215416217415217416217417215421214423215420214420215419217419217420217423217423214423214423215420216420217420217423218423215424215425214423214423215421217423218423218424215425214425215425214423217423218423218424217424217426216426214425215425215424218424217424217427217429216429216428216426217426217427218428218428216432216431216431215430215430218429217431000000000000000000000000215433217432000000000000000000000000000000000000000000000000000000000000000000)
 (.leaf 215449215448000000000000000000000000000000217448217450215449215448000000000000000000217448218450215451214452215449215448215449217448218450217450215451214453214452215449217450218450217450217451215453214453214453214452215451217450217451218452215454214455214454214453215453218452216453216455217457216458214457214455215454216455218456217458000000000000216458214457217456218456217458000000000000000000000000000000000000000000000000217603215607215607215604000000000000217603218605217607215607214606215607215604216604218605217607216607216616215616216613216612216612216613217613218615215616215617215616216613216613217613218615218616216621215621216618214618216617216618217618217621216622214621215621216618216618217618217621217622216629215627215626000000215626216626217626217629216630216630215627215626216626217626217629216630215631215631216630216630000000216630217630217631215634215635216632215631215631217631217632217633215635215636215635216632216632217632217633217636216637215637215636215635215634217633217636216637216638215638215637215636215635217636216637217638215641000000000000000000215639216639216639216641215645214644215643215642216642216642216643217644215645215645214644215643216643216643217644216646215647214647215646215645215645216646217646216648216651216651215648214647215647216648217650218650217652215652216651215648216648217650218650217650000000000000000000215652217652217650000000000000000000216717216714000000000000000000000000000000000000000000216717216714000000000000000000000000000000000000000000000000000000000000000000000000))
 (.node 1 (.leaf 217223217223217222216219217219218219218220218223217228217228216225217225218225218224218225218228217229216229217228216225217225218225218228218229216234215233216233215232218231218232217233218234216236215236215234215233216234218234218235217235216237215237215237215236216236217235218237218238216237216237215237215237216237218237218238219239217240216240216237215237216237218238219239219240217241216241216240216237216237219239219240218241218245217244215243215242218243218243219243219243218249216248216247216246217246218246218247219248216250216249216248216247217247218247219248218249218254216252216251216250217250217251219253219253217255216255216252216251217251219253219253219255218256217256216255216252218254219253219255219255216262216262216261217261217260218260218261218262216264216264216263216262216262218262217263218264216265215266216264216263216264217263218264218265216269215268215267215266216265218265217266218269217275216275216274216271216271217272218274218275217276217276216275216274218273218274218275217276217279217279216278217276218277218277218278218279218387216386217385217384218385000000219385218386218388216389216386217385217385219385218386218387217390216390216389216386218387218386218387217390217391216391216390216389218388218387217390217390)
 (.leaf 216399216400215398216396217396217396217399218400217402216402215401216400216399218400218401218402217407216407216406217404218405219405218406219406217412216412216409217408217408218408218409219411216412216413216412216409217409218409219411219411216413215414215414216413216412219411219413218413216419216418215418216416217416218416217417217419217423215421216420215419217419217419218420219423218423217423215421216420217420218420219423218424217427217426215425215424218424219424219424219427000000216432217431215430218429219429000000000000218450217450215449000000000000000000218448218449218452215453215451215451217450219450219451218452216453215453215453215451217451219451218452217454218456217456215454215453216453217454217454219456218605216604000000000000000000218602218603218604217607215607216604000000217603218603218604218605216607215607215607216604218605218604218605219607216609216608215607215607216607219607218607218608216610216609216608215607216607218607218608217610218615216616216613216612216613218612218615219615218616215616216616216613217613218615219615218615217621216621216618216617216618218617219618218621217622216622216621216618217618219618218621218622217629216629216626215626216626218625218626217629216630216630216629216626217626218626217629217629217636215635215634216632217632218632218633219636216637216637215635215634217633218633219636218637216641215641215640215639216639218640217639217641216643216643216642215642216642217642217642218643216646215645215645216643216643218643218644218645216648215647215646215645216646218645217646217648))))))
 (.node 16 (.node 8 (.node 4 (.node 2 (.node 1 (.leaf 218650216651216648215647216648217648218650218651000000000000217652216651218650218651219651219652000000000000000000000000000000219652000000000000000000000000000000000000000000000000000000000000000000000000000000000000000000000000000000000000218223217223217220217219218219220219220220218223000000218223217223217220218220220220218223218223218229217229217228217225218225218226220228218228218235216235216234217233217233218232219234218234218238216237216237216236217235218235219237219238218241217241217240216237219239220239219240219241218242217242217241217240219240219240219241219242219245218245218245217244219243000000220243219244219248218249217247217246218246219246218247219248217251217250216250218249219248219248220249219252219253217251217250216250218249220249219252220252219253218254217251217250217251219252220252220253219255217255218254217251219253220252220253219255218257217257218256217255219255219255220255220257217259217259218258218258219257220257219258219259217263216264216262217261218261220262220263220264217266217268216265216264218264218264219265219268218269216269217268216265218265219265219268218269217269216269216269217268217266219268218269218269218274218273216271216271217271218270218271219274218278217278218277217276217276218275219277218278000000000000000000217280219280000000000000000000217390217391217390218388218387218388220389219389217391217392217391217390217390220389219389219390217392000000217392217391217390219389219390218392217395217394217393217392217393220392219393219396217396217395217394217393218393219393219396219397)
 (.leaf 217396217396217395217394217395219396219397218398217399217397217396217395217396219397218398218398218401217401216399217397217399218398220400219401219411217412217409217408218408218408219409220411219411216412217412217409218409219409220411220412219413216413216412217412219411220411220412220412217414217414216413216413219413220412219413218415217417217417217416217415218415219415218416218418217419217419216419217417217417218418220420220421219423217423217420217419217419220421220422219423218424218423217423217420218420220422219423219424219427217427217424218424219424220424219424219427219427218428217427217424219424219424219427219428218429218428218428217427219427219427219428219429000000000000217431218429219429000000000000000000000000000000000000217431000000000000000000000000219451217451217450218450218449219449219450219451217454216453218452217451219451219451219452219455217454216455216453218452218452219452219455219456219456218456216455216453217454219455219456219457000000000000217458218456219456219457000000000000219607216607217607218605218604219604219605219606217610216610216609216607218607219607219608219609217611216610216610216609218608219608219609219610217612217611216610216610217610219609219610219611218615217613216613217611217612219611220614220614219615218615217613216613218612220614220614219614219618217618216618217616218616218617219617219618218621217621217618216618218617219617219618219621218622217622217621217618219618219618219621218621217629216630217629217626218626218627218629218629219636217636217633217632218632220634220634220635))
 (.node 1 (.leaf 218637216637217636217633218633220634220635220635217637217638216637217636219636220635220635218637218640216639216639217638217637218637218639219640217646217646216646217644218644219644220646220646217648216648217646216646218645220646220646219647218650217650216648217646217646220646219647218650218651218650217650216648217648219647218650219651000000000000000000217650219651219652220653218654000000000000000000000000219652220653218654219655000000000000000000000000000000219655000000000000000000000000000000000000000000000000000000000000000000000000000000000000000000000000000000000000000000000000000000000000000000000000000000000000000000000000000000000000000000000000000000000000000000000000000000000000000000000000000000000000000000000000000000000000000000000000000000000000000000000000000000000000000000000000000000000000220219218219000000000000000000000000000000221220220220218220218219000000000000000000221220220220218223218223218220218219220219221220220220000000218223000000218223218220220220220220000000220224220224218223000000218223218223000000220224000000220224218224218223000000218223220224000000220224218226218225218224218223220224000000220224220225220228218228218225218224220224220224220225220228218228218229218228218225218226220225220228221229218229218230218229218228220228220228221229221229220230219230218230218229218228221229221229221231218232217233218232219230220230221231220232220233219234218234217233218232218231220232220233219234218234218235218234217233218232220233219234220235219237218237217235218235218234220235221236220237)
 (.leaf 219238218238218237217235218235221236220237220238220249218249219248218247218247219247220248220249219252217251218249219248219248220248220249220252220252219253217251218249220249220249220252221252220255219255219255219253220253221254221254221256220257219257218257219255220255221256220257221256220263218262218261218260219260219261220261220262220264217263218262218261220262220261220262220263218264218264217263218262220263220262220263220264219268217266218265218264218264220264220265220268218269218269217266218265219265220265220268219269000000219280218279218278218278219277220279000000000000000000219280218279218278220279000000000000220387218386219385000000000000000000000000220386218388218387218386219385000000000000220386221387220389217390218387218386220387220386221387220388218392217392217391217390219389221390221390220391220392217393217392217391219390221390220391220392219396217395218393217393220392220392220395220396219397217396217395218393219393220395220396219396220400218400217399217396218398219397220399220400219401218401218400217399218398220399220400220401219402218402218401218400220400220400220401220402218408218408218407218406220406220408221408221409220411219411218409218408218408221409221410221411220412219413219411219411220411221411221411220412218416218416218415217414218415219414219415220418218418217417218416218415219415219415220418221418220420217419217417218416218416220418221418221420220421217419217419217417218418221418221420221421220422218420217419217419220420221420221421221421219423219423218420217419220421221421221421221422)))
 (.node 2 (.node 1 (.leaf 219424218424219423218420220422221421221422220424219427219427219424219424220424221424220426220427219428219427219427219424219424220426220427219428000000000000000000219429000000000000000000000000219455217454218452219451219451219451220452220453219456217454217454218452219452220452220453220454000000000000000000000000000000000000000000000000000000000000000000000000000000000000000000220598000000000000000000000000000000000000220598219600220614218615218612217612219611219612220614000000219621218621219618218617219617221618220620219620218623218624218623218622218621220620220621219624218625217624218624218623218623220621219624219624218627218626218625217625218625219625219625219627218629217629217629218626218627219627220627220630218630217630217629217629218629220627220630220631220631217630217630217629218629220630220631000000220631218631217630217630218630220631000000220631220634218632218631217630220631000000220631220634220634218633218632218631220631220631220634221635220635219636218633218632220634220634221635221635220635218637219636218633220634221635221635221635218639217639217637218637220635221635220636220637219640218640217639217637218637220636220637220640218640217639218640217639218639220637220640219640218643218643217642217642218641219642219642220643220646218645218644218643218643220643220644221645220646217646218645218644219644220644221645221646218650218650217648217646220646221646221647221649219651218651218650217648219647221647221649219651219652219651218651218650218650221649219651221652219655000000000000219652220653220653221654219654)
 (.leaf 219656000000000000000000000000000000000000000000000000000000000000000000000000000000000000000000000000000000000000000000218223220220220219221220000000221220000000220224218223218223220220220220221220000000000000000000220224218223218223000000000000000000000000220228220228218226220224220224220225220225221228221229218228220228218226220225220225221228221229221231220230218229218228221229221229222229222231220233218232218231220230221231222231222231222232221236218235218234219234219234222233222235222236220238219238219237218235221236222236221237221238219246219246219245219244220244221244221245220247220252219252220249219248220248220249222251222252221252220252219252220249220249222251222252221253221256220255219255220253221254222253221255222256221256220257220257220255221256222256222256221256219259219258220257220257221256221256221257222259219260219259219258220257220257221257222259222259219269218269219268219265220265220266221266221267219270218269218269218269219269221267221268222269219273219274218271218270219271220270220271220274219275218275219274218271219272220271220274220274219276219277218275218275219275220274221276222277219277218278219277218275219275221276222277221278220279218278218278219277219276222277221278000000000000000000218278218278219277221278000000000000000000000000000000000000000000000000000000000000221390219390219389220389220388222389221389221390220395219393220392218392220391221391221394221395220396219396219393220392220392221394221395220396220399218398218398219397219396220396220398221399))
 (.node 1 (.leaf 220407219407219404220404221404221405220406221407221410219409218408220408221408222409221410221411221411220411219409218408221409221410221411000000219413219413220412220412221411221411221412222414219414218415219413220412220412221412222414222415219415219415218415219413219413222414222415222416220418218416219415218415219414222415222416222417221418218418218416219415219415222416222417222418221421220421220420218418221418222418222420221421221424220424219424219423221422222423222423222424220427219427219424220424221424222424221426220426000000000000219429219428219428221428221429000000219450219450219449219448220448221448220449220451220457219457219456219455220453221455222455221457000000000000219457219456220454222455221457000000000000000000000000000000000000000000000000000000000000000000000000000000000000000000000000000000000000000000000000000000000000000000000000000000000000000000000000000000000000000000000000000000000000000000000000000000000000000000000000000000000000000000000000000000000000000000000000220596219600000000000000000000000000220598220598221599219601000000000000000000220598220598221599221600219602000000000000000000219600221599221600221601219603219602000000000000219601221600221601220603219606219605219604219603220603220604221604221605219609219608219607219606220606221606220607222609219612219611219610219609219610220609221610220612000000220614220614219611219612220612221612220614219616219615219614220614000000220614221614221615221618219617218617219615219616221615222617222618220620219618219617218617220616222617222618220619)
 (.leaf 219624218625218623218623220621220622221622220624219625218626218625218625219624220624221624220626220631218630218629218629220627220628221628220630221635220634220634220631220631220632221632221635220640219640218639218637220636222636221637220639221645220646219644218643220643220644220644221645221647219647220646220646221645221645221646221647221649218650219647220646221646221646221647221648219651219651218650219647221647221647221648222650221652219652219651218650221649221648222650221652220653220653219652219651219651222650221652221653221654218654220653219652221652221652221653221654219656000000000000219655219654220654220654220656000000000000000000000000219656220656000000000000000000000000000000000000000000000000000000000000000000000000000000000000000000000000000000000000000000000000000000000000000000000000000000000000000000000000000000000000000000000000000000000000000000000000000000000000000000000000000000000000000000000000000000000000000000000000000000000000000000221220000000000000000000000000000000000000000000000000220220221220000000000000222220223222000000220224000000220220221220222220223222000000000000000000220224000000000000223222000000222225220225220224000000220224000000000000222225221225221229221229220228220225220225221226222228223228222233219234220233220232222231222232222233223234222235220235219234220233222232222233223234223235222236221236220235219234222233223234223235222236221237220237221236220235222235223235222236222237220247219246220245220244221244222244223245221247220249220248219247219246220247221247221247223249))))
 (.node 4 (.node 2 (.node 1 (.leaf 222251220249220248219247220248221247223249223251222252220252220249220248220249223249223251222252221253221252220252220249222251223251222252223253222259219260219259220257221257221258221258222259220260219261219260219259222259221258222259222260220262220262220261219261220260222260221261221263220266220265220264220263220263221263222264221266222269219270219269219269221267221267221268222269220270219271219270219269221268221268222269222270220271219272219271219270222269222269222270222271220274219273219272219271220270222270222271222274220274219275219273219272220271222271222274223275221276219275219275219273220274222274223275222276222277219276219275219275220274223275222276223277000000220279219277219276222277223277222278000000000000000000000000000000000000000000000000000000222389220388221387220386221386000000222387222388221394220392220391221390221390222390222391222394221395220395220392220391221391222391222394221394220398219397219396220396220396221395222397221398221399220399219397219396220396222397221398222399221408220408220407221405220406222406222407221408222414219413220412221411221411221411222412222415222415219414219413220412221412222412222415223416222416219415219414219413222414222415223416223416222417220418219415219414222415223416223416223418222418221418220418219415222416223416223418223419221421221421221420221418222418223419223420222421222424221424220424221422222423222423222424222425220426220427220426221424222424222425223426222427221429220429219428220427220426222427222428222429220451219450220449220448221448221449223450223450)
 (.leaf 222451219451219450220449220449223450223450222451221455220453220452219451222451222451221452222453222455220454220453220452220452221452222453222456000000000000220457220454222455222456000000000000000000000000000000000000000000000000000000000000000000000000000000000000000000000000000000000000000000000000000000000000000000000000000000000000000000000000000000000000000000000000000000000000000000000000000000000000000000000000000000000000000000000000000000000000000000000000000000221592000000000000000000000000000000221592222592221594220603219603219602219601221600221601221601221604220604220603219603219602221601221601221604221604220607220607220606219606221605221605222606223607222609219609220607220606221606222606223607222608220609219610219609220607220607223607222608222609220612219612220610219610220609222609222610222611220614000000220614219612220612222611221612222615222617220616219616220614221614221615222617000000222618221618220616219616221615222617000000222617220627219627219625219625221624221625222627221627221632000000220631220630221628221629222631221632220632220631000000220631220630222631221632221632221635221635220634220631220632221632222634222635222636221635221635220634221632222634222635222636222636220636221635221635222636222636223636222636220639220640220637220636222636222636223637223639220641219640220640220637221637223637223639221641220642219641219640220640220639223639221641222642221652221652219651221649221648223650223650221652221653220653221652219651222650223650221652221652220656219656220654219654220654222653223654221656))
 (.node 1 (.leaf 219656220656221656222658000000000000000000000000000000000000222658000000000000000000000000000000000000000000000000000000000000000000000000000000000000000000000000000000000000000000000000000000000000000000000000000000000000000000000000000000000000000000000000000000000000000000000000000000000000000000000000000000000000000000000000000000000000000000000000000000000000000000000000000000000000000000000000000000000000000000000000000000000000000000000000000000223219223222000000221220000000000000223219223220224222000000000000000000221220222220223220224222000000222225000000000000000000223222224222000000000000221225220225000000000000000000000000000000222225222228221228220225220225221225222225222225223228223228221229221228220225221226222225223228223229222232222231222231222229221230222229223231224231222236222236222235222233223234223234224234223236223245221245221244222244223244224244224244224245221247220247221245221244222244224244224245222247223249220249220248220247221247222247223247223250223251222251220249220248221247223247223250223251222252222252222251220249223249223250223251223252223255222256221255222253223254223254223255224255221258222259221257221256222256223256222257223258221261221261220260222259222259223259222260223261221263220262221261220260222260222260223261223262222268221266220266221264222264223264222265223266221267221267221266220266221266222265223266222268222274220274220271220270222270222270223273224273223275220274220274220271222271223273224273223275223277222277221276220274223275223275223276223277)
 (.leaf 222394221394221391221390222390224390223391223392221394221395221394221391222391223391223392224393222397220396220396221395221394224393223396224397221398220398220396220396221395223396224397223398222400221400221399220398221398223398222399223400221403221404221403220402221402223402223403224404222405221405221404221403221403223403224404223405222406220406221405221404221403224404223405223406222415222414221412221411221411223411223414223415222421221421222420222418223419224418224419223421000000000000000000000000000000000000000000222447221449221448220448000000000000222447223447223448223450220449221448220448221447223447223448223449223450220451220449221448221449223448223449223450000000000000000000000000000000000000000000000000000000000000000000000000000000000000000000000000221595000000000000000000222592223592222593223594221596220596000000000000221594222593223594222596221598220598220597220596221596222596222596222598221601221600221599220598221599222599222601222602223607220607221606221605221605222606222606223607221612221612220612221610222610222610223611224613222615220614221612220612222611223611224613222615221615221614220614221612221612224613222615222615000000222617221615221614221615222615222617222617221620221619220619222618222617224617223618223619221621221620221619220619222618223618223619222622221622220622221620221619221620223619222622222622222625220624221622220622221622222622222622222624221627220627220626221624221625222625222627222627221629221628220628220627221627222627223627223630222631220630221628220628221628223627223630223631)))
 (.node 2 (.node 1 (.leaf 221632221632220630221628221629223630223631223632222634221632220632221632221632223632223633222633223637221637222636222636223636224637224637223637223639220639221637222636222636224637223637224639221641220641220639221637223637223637224639224640222642220642220641220639223639224639224640224641221642220642220642220641221641224640224641222642221643220644220642220642221642222642223644224644221644220644220644220642221643223644224644224645221645221645220644220644221643224644224645224646221646221646221645220644221644224645224646223646223648221647221646221645221645224646223646224648223650221648221647221646221646223646224648224649223650222650221648221647223648224648224649224650221652221653221652222650223650224650223652223653221653221654221653221652221652223652223653222653223654220654220654221654221653222653222653223654221656220656220654220654222653222653223654224656222658000000220656220654223654223654224656224657000000000000000000220656221656224656224657000000000000000000000000000000000000000000000000000000000000000000000000000000000000000000000000000000000000000000000000000000000000000000000000000000000000000000000000000000000000000000000000000000000000000000000000000000000000000000000000000000000000000000000000000000000000000000000000000000000000000000000000000000000000000000000000000000000000000000000000000000000000000000000000000000000000000000000000000000000000000000000000000000000000000000000000000000000000000000000000000000224222223222222220000000223219223220224220224221000000222225000000223222224222224221224222000000)
 (.leaf 222225221225222225000000000000224222000000223225223228222228221226221225222225223225224227223227223234223234222233222232224231225231224233225234224234223235223234222233224233224233225234225235222247221247223245222244224244224244224245224246223250223249221247221247222247224246224249224250222260222260222259221258223258224258224259223261222263221263221263221261223261223262223262225264222268221267222268221266222265224265224266223268222270222270222269221268222268224268223269224272223273222271222270222269222270223269224272224273224273222274222271222270222270224272224273223274224388222388222387000000000000000000000000224388224390222390223389222388224388224388225389225390224393221394222394222391223391224391224392224395223396221395221394222394223392224392224395224396224397222397221395221394224393224395224396225397222399222399221398222397224397225397225397224399223401222401222400222399222399224399224400224401223406222406222405221403224404224404224405224406222411221411221410221409223408224408223409224410223414222412221411221411222411224410223411225414223415222415222412221411223411223411225414225414224424222425222424222423224423225423225423224425222426222427223426222425224424224425225425225426222428222429222428222427222426225426225427225428222430221430222429222428222427225427225428224430000000000000221430222429222428225428224430223430222447000000000000000000000000000000000000223447222452221452222451223450223450225450223451225453222454222453221452222451223451223451225453224455223456222456222453221452222452225453224455000000))
 (.node 1 (.leaf 222456222453222454224455000000000000000000000000000000000000000000000000000000000000222591221592000000000000000000223589223590224591222593221594222592221592222591224591225592224593222596221597221596221595223594223595223595224596222598221598221597221596222596223595224596224597222599221599221598221597222596224596224597224598222601221599221599221598222598224597224598224601222602221601221599221599222599224598224601223602222602221601221601221599222601224601223602223602222605221605221604221604222603223603224605224606222606221605221605221604222604224605224606000000222606222606221605221605222605224606000000223607222609222608223607222606222606223607224607224608224610222609222608223607223607224607224608224609222610222610222609222608222609224608224609224610222615222615221612222611223611223612224612224613222615221615222615221612224613224612224613223615222617000000222617221615222615223615224617000000224617222617000000222617222617224617000000224617222622221621221620222618223618224618224619224620222622221622221621221620223619224619224620223622222624222625221623221622222622223622225623223624222627222627221625222625222624223624223624223627222627221627222627221625222625223624223627223627223630221629221628221627222627223627223627223629224635222636222635222634222633224634224635224636224637223636222636222635224634224635224636225637224639223639223637222636224637225637225637225640224641222642221641223639224639225640225640225641222642221642222642221641224640225640225641224641223644221643221642222642224641225641224641225643)
 (.leaf 224644221643221643221642222642224641225643225644224646221645221644221643224644225644224644224645224648223648221646221645224646224645224646225649224650223650223650223648224648225649225649225649223653221652221652223650224650225649224650224653224656221656223654222653222653223654223654224657224657222658221656223654223654223654224657225658000000000000222658221656224656224657225658225658000000000000000000222658224657225658225658000000000000000000000000000000000000225658000000000000000000000000000000000000000000000000000000000000000000000000000000000000000000000000000000000000000000000000000000000000000000000000000000000000000000000000000000000000000000000000000000000000000000000000000000000000000000000000000000000000000000000000000000000000000000000000000000000000000000000000000000000000000000000000000000000000000000000000000000000000000000000000000000000000223220223219000000000000000000000000000000000000000000000000000000224222224221225221226223000000223225222225000000000000224222226223000000226225224227222225222225000000000000000000226225000000223227223228222225222225223225226225000000224228225231223231222229223229000000226228226229225231225231224231223231222229223229226229225231226231225234223234224233224231225231226231225233225234225237223237223236224234225235226235226236226237224238223238223237223236225236226236226237225238224239223239223238223237225237226237225238225239224242223242223241223240225240226240225241225242224249223247222247224245224245225245225246226247224250223250223247222247224246225246226247225250)))))
 (.node 8 (.node 4 (.node 2 (.node 1 (.leaf 225253223255223254224252225252226252225252225253225257223256223255224255224254225254225255225256223257222257223256223255225256225255225256225257223261222260223259223258224258225258225259225260223262223261222260223259224259225259225260225261225264222263223262223261223262225261224262225263223265223264222263223262223262224262225263225264223268222268223266222265224265225265225266224268223269222270222268222268223268224268225270224271224272222270222270222268224268225270224271000000223275223276223275224273223274000000000000000000000000223277223276223275223274000000000000000000000000000000223277223276223275000000000000000000000000000000000000223277000000000000000000000000225389223389224388223387000000000000225388225389224396223396224393223392224392226393226394226396224400223400222399223398225397226397225399224399223409222410223408222408224407224408225408225409223411223411222411222410223409225409224410225413225414223414223411222411224410224410225413225414225414223415223414223411223411225413225414225415224416224416223415223414225414225414225415225416224417223417224416223415225414225415225416224417225428222428222427222426225426225427226427226427224430222430222428222427225427226427226427225430223430000000222430222428225428226427225430224430000000000000000000000000223430224430000000000000000000000000000000000000000000000000000000000000223447222447000000000000000000000000000000225446223448223447222447000000000000000000225446226447223448223448223447222447223447225446226447225448223450223449223448223447223448226447225448226450)
 (.leaf 225450223450223449223448223448225448226450226450223451223451223450223449223450226450226450224452224455222454222452223451223451224452226454225455000000223456222454222452225453226454225455000000000000000000000000223456000000000000000000000000000000000000000000000000000000000000000000224588225592223592222591222591223590224590225591225592223595223594222593223592225592225592225593225594223595222596223594222593224593225593225594226596224601222601222599222598224597224598224598225599223602222602222601222599224598224598225599225600224605222604222603222602223602224602225604224605224606222605222604222603223603225604224605224605223612223611222610224610224609225609225610226612223615222615222615224613224612226612225613226614224617222617222615222615224613225613226614225615000000222617222617222615223615226614225615224617223622222622222622223619224619225619225620225621225623222622222622222622224620225620225621225622223624222624222622222622223622225621225622225623223624222625222624222622225623225622225623225624223627222627222625222624223624225623225624225625223627222627222627222625223624225624225625225626223627223627222627222627223627225625225626224629223629223630223627222627223627225626224629225630223632223632223631223630223629225630225631226632224633223633223632223631223631225631226632225633224634222633223633223632223632226632225633226634225640224639223637224637225637226638226639226639225643223644222642224641225641226640225643226643225644224644223644222642224641225643226643226643225649224648223646224646224645224645226647226647))
 (.node 1 (.leaf 224653223653223652224650225649225649224650225653223653222653223653223652224650224650225653224653224657224656223654222653223654224654226656224657000000000000000000224657225658225658226659224659000000000000000000000000000000224660000000000000000000000000000000000000000000000000000000000000000000000000000000000000000000000000000000000000000000000000000000000000000000000000000000000000000000223220000000000000000000000000000000227219226220224220223220000000000000000000227219226220226223224222224221224220226220226220227222227223000000000000224222224221225221227222227223226223226225223225000000224222226223227223226223000000000000224227223225000000000000226223000000227226224228223227224227223225226225000000227226227227226228000000223227224227000000227226227227227228226229223229000000223227224228227227227228227229225231225231223229000000226228227228227229226231226231225231225231223229226229227229226231226232225234225234224233225231226231226232227233226234226247224249224246224245225245226245226246226247225250224250224249224246225246226246226247227249226251224251224250224249226247226247227249227250226252225252223251224251226251227250226252227252224262223262223262223261225260226260226261226262224268223268224266224265225265226265226268225269225270224268223268224266225266226268225269226268000000224273224272223269224271000000000000000000000000223274224273224272000000000000000000000000000000223274223274224273000000000000000000000000000000223275223274223274000000000000000000000000000000000000223275223274000000000000000000000000)
 (.leaf 226392224391225390225389225389226389227390226391226393224392224391225390225390227390226391226394226394224395224392224391226392226391226394227394226396224396224395224392226393226394227394227395225397225397224396224395226394227394227395227396226397225397225397224396226396227395227396227397224399224400224399225397226397227397227398225399224402224402224401224400224399225399227400227401224403224403224402224401224400227400227401226403224404224404224403224402224402227401226403227403224404224405224404224403224403226403227403225404224410224410223409224408225408225409226409226412225413223411224410223409225409226409226412226413225414225414223411224410224410226412226413227414224420224420224419224418224417225417225419225419224422224422224421224420224420225419227421226422226422225423224422224421224420227421226422226423226424225423225423224422224422226422226423227424225426225425224425225423226424227424227425226426224430223430224430225428226427226427226430000000000000000000000000223430224430000000000000000000226447223448223447000000000000000000000000227448226450223450223448223448226447227448227448227449224452223451225450223450226450227449226450226451226454225453223451225450226450226450226451225453000000000000224455225453226454225453226455000000224588000000000000000000000000000000000000227587224589000000000000000000000000000000227587226588224590223590223589000000224589226588225589225591226596223595223595224593225593226593226594226595225598224596223595223595225594226594226595227597224598224597224596223595226596226595227597226599)))
 (.node 2 (.node 1 (.leaf 224602223602223602224601225599225600225600225602224605224605223603223602224602225602226604226605225607000000224606224605224605226605000000226605224607223607000000224606224605000000226605225607226612223612224610224609225609225610225610226611226612224612223612224610225610225610226611226612226614223615224613224612226612226612226613227614224617000000224617223615226614227614226615000000224617224617000000224617225615226615000000226617224619224618224617000000224617000000226617226618224629223627223627223627225625225626226626227629225630223629223627223627225626226626227629227630225631223631223629223627224629227629227630227631226634224634224633223632226632226632227633227633226635224636224635224634226634227633227634227635226638225637225637224636226635227635227635227637226639225640225637225637226638227637226639227639226640225640225640225637226639226639227639227639226643225643224641225641226640227641227642227642224645224645224644225644226643227644227646227646226647224646224645224644226645227646227646227647226647225649224646224645224645227646227647227647226648225649225649224646226647227647227647226648224650224650225649225649226648226648226649227651225653224653224650225649225649226649227651225653224653223653224653224650224650227651225653225653226656223654223654223653224653225653225653226656224657224657223654223654224654225653226656226657225658225658224657223654226656226656226657225658226659225658225658224657224657226657225658226659224660000000000000225658226659226659227659226661000000000000000000000000224659227659226661000000)
 (.leaf 224660226661000000000000000000000000000000000000000000000000000000000000000000000000000000000000000000000000000000000000000000000000000000000000000000000000000000000000000000000000000000000000000000000000000000000000227219000000000000000000000000000000000000227219227222225221226220000000227219227219227220000000227223226223225221226220226220227220000000000000000000226225000000226223227223000000000000228225227227224228000000226225000000228225000000000000227228226228224228000000227226000000000000227227226232226231225231226229227229228229227231226232226235226235225234225233227233228233227234228235226241225241226240225239227239227239228240227241227249225250226247225246226246227246227247227250227250226251225250226247226247227247227250227251226252226252226251225250227249227250227251228251225257225256225255225254226254226255227255227258225258225258225257225256225257227258226257226259225263225263224262225261226261226262226262227263226268225266225265225264226264226264226265000000225269224268225266225265226265226265000000000000000000224271225270224268225269000000000000000000000000000000224271225270226268000000000000000000000000000000000000224271000000000000000000000000000000000000000000000000000000000000000000000000000000000000000000000000000000000000000000000000000000225388000000000000000000000000000000000000227390225390225389225388000000000000226389228390227396225397226396226394227394228395228395228397225399224399225399226397227397228398228398228399227400224400224399225399227398228398228399228400))
 (.node 1 (.leaf 227401224402224400224399225399228399228400228401226403224403224402224400227400228400228401228402227403224404224403224402227401228401228402227404225405224405224404224404227403227404227405227406225406224406224405224404225404227405227406227407225407225408224406224405225405227406227407226408225408224408225408224406225406227407226408226408226413225413224410225409226409226410226412227413225417224417224417225416225416226415226415226417225419224420225419224417225417226417227419226419226422224422224420224420225419226419227421227422226423226422224422224420227421227421227422227423227427225427225426226424227425228425228425228427226430225430226427226427227427228427227427228429000000224430225430226427226427227427228429000000000000225446000000000000000000000000000000000000227448225448226447225446000000000000227447227448227449226450225448226447227448227447227448227449227587224588000000000000000000000000228587227587225589224590224589224588227587227587227588227589225591224590224590224589226588227588227589228591225592225591224590224590225589227589228591227591226599224598225598226596226595227595227596228597225600224598224598225598227597227596228597226599225600225600225599224598225600226599227601227602225602224602225600225599225600227601227602227603226604225604224602225600225600227602227603226604226605224605225604224602225602227603226604226605225607224607225607224605000000226605226605227606225610225609224609224607225608226607227610226610000000224617225615226614227614227614226617226617225620225619224619224617226617226617228619227619)
 (.leaf 227620225620225619224619226618228619227619227620225622225621225620225619225620227619227620227621225623225622225621225620227620227620227621227622225624225623225622225621225622227621227622228624225625225624225623225622225623227622228624228625225626225625225624225623225624228624228625228626227629224629225626225625225626228626227628227629227630225630224629225626226626227628227629228630227631225631225630224629227629227629228630228631226632226632225631225630227630228630228631228632227633225633226632225631227631228631228632228632227634225635226634225633227633228632228633228634227637226638225637226635227635228636228636228637226639226639226638225637227635228636228637227637227642225643226640226640227639227639228642228642227642226643225643226640227641228642228642227642227646226645226643226643227642227642227643228644227647226647224645226645227646228644228646228646227651224650225649226648226648228649228649227650225653225653224650225649226649228649227650227651225653224653225653224650227651227650227651226653226656226656224654224653225653226653227655227656226657224657226656224654225653227655227656226656227659224659226659225658225658226657226659226660000000000000000000000000000000226661000000000000000000000000000000000000000000000000000000227219000000227222226220227219227219000000228220000000228225000000226223227223000000227223000000000000000000227226000000226223000000000000000000227226227234226234227233226232226232228232228233228234228237227237227236226235228235229235228236229237227250227249226247226246227246228246228247228248))))
 (.node 4 (.node 2 (.node 1 (.leaf 226255226253226252227252227251228251228252228253226255226254226253226252228253228252228253227255226257225258225257225256227255227256227256227258226262226261226260225259226260227260227260227262226264226264225263226262226262227263229265228264226265226265226264225263227263229265228264000000000000226268226265226264226264228264000000000000000000225269226268226265226265000000000000000000000000226268225269226268000000000000000000000000000000000000226268225269000000000000000000000000226389226389000000000000000000000000000000228389227393226391227390226389226389228389228390229391228393226394226391227390228390228390229391228394228400227400225399227398228398229399229399229400227404227403226403227401228401229401229402229404226409225409225408225407226408227407227409227409226412226412226409225409226409227409227409228412227413226413226412226409226410227409228412227413227414227414226413226412226412228412227413227413226417225417225416225416226415227415228415227417226419225419225419225417226417227417228419228420227422226422227421225419226419228420228421228422228427227427227427226426228425229426229426229426228429226430226427227427228427229426229429228428000000000000226430226427227427229429228428000000000000000000000000226430228429228428000000000000226450226450227449227448227448229448229450229452226452226451226450227449227449229450229452229452226453225453226451226450226450229452229452228452227455226455225453226451226452229452228452000000000000000000226455225453226453228452000000000000228591225591225589226588227588228588229590229590)
 (.leaf 226594226593226592225592227591229592227592228593226594226594226593226592226593227592228593227595226599225600226599227597227596228596228597229600227601225600225600226599228597228597229600228601227602225600225600225600226599229600228601228602226605000000226605226604226604228604228605228606226605226605000000226605226605228605228606227606227610226608225608225607227606227607228609227609226612226611225610225610226610227610228612227612226617000000226615227614227614227615228617000000226617226617000000226615226617228617000000228617228619226618226617000000226617000000228617228618228624225624225623225622227621229622228624228625228625225625225624225623227622228624228625229626228626225626225625225624228624228625229626228627227628226626225626225625228625229626228627229628227629227629226626225626228626228627229628228629228633227633227633226632228632229632229633229634228637227637227635227635228636229635229636229637228639227639226639227637228637229637229638229639228642227641227639227639228639229639228639229641228646227646227646227644227643229643228646229646228649226648227647227647228646228646229647228648228649226649226648227647227647229647228648228649226653225653225653227651227650228650228651227653227656226656225653225653226653227653228655227655226660227659226659225658226657227657228659227659226661000000226661227659226660227659227659228660000000000000000000226661227659227659228660227662000000000000000000000000000000227662000000000000000000227219000000000000000000000000229218000000000000000000227220227219000000000000228220000000))
 (.node 1 (.leaf 227223000000000000227220228220228220000000000000000000000000000000000000000000000000000000000000000000228225000000000000227223000000000000000000227227000000000000228225000000000000000000230227229228227227000000000000227226000000230227230229228230228229227227000000227227230227230229229230228233228233226232227231227230228230228232228233228243227243227242227241229241230241229242229243229245228245227245227244229244230244230245230245229251227251227250227247228247228247230249229251229251228251227251227250228248230249229251230251227255226255226255228253228252228253228253229254227256227255226255226255228253228253229254229257227256227258227255226255227255229254229257228257227260226260226259226257227258229259228258229259227260226261226260226259227259228258229259229262227262226262226261226260227260229259229262229263227263226262226262226261227260229262229263228264229265227263226262226262227262229263228264000000000000226265226264227263229265000000000000000000000000000000226265226264228264000000000000000000000000000000000000226265000000000000000000000000229391227393228390226389228389229389229390229391228394228393227393228390228390229390229391229394228405227405227404228402229402230402230402230404229405227406227405227404229404230402230404230405227407226408227407227406229405230405230406229406227409226408226408227407227406230406229406229407227409226410226409226408227409229407228408229411228412226412226410226409227409228408229411228412227413227413226412226410227409229411228412228413227417226417226415226415227415229414229417228417)
 (.leaf 228420226419227419226417227417228417228419228419229426228425228425227424227424230424230425230425229426228427228427228425229426230425229427230427000000000000000000228429228428000000000000000000228449227447000000000000000000000000000000230448229448227448227447000000000000000000230448230449229452226450227449227448229448230449229449229452229452226452226450227449229450229449229452230452000000227455226453226452229452230452228454000000229586228587000000000000000000000000000000000000229590227589227588227587228587229587229588229589229590228591227589227588228588229588229589230591227592226593227591228591229590230591229591229592227595226594226594226593227592229592230593230594227595227595226594226594228593230593230594230595229600226599228597227596228596230596230598230598228601227601226599228597228597230598230598229601228602227602227601226599229600230598229601228601228609226607227606226605227606228606229608228609227609227610226607227606227607229608228609228609228612226611226610227610227609228609229611228612227612226612226611226610227610229611228612228612228617226617227614227613227614228614228614228617000000226617226617227614227615228614228617228617229622227621227620227619228619228620228620229621228624227622227621227620228620228620229621229622228625228624227622227621229622229621229622229623228630228630227629227628229628230628230628229630229639228639227637228637229637230637229637229638229641228642227639228639229639229638230640230640229641228642228642227639228639230640230640230642229643227643227642228642229641230642229642230644)))
 (.node 2 (.node 1 (.leaf 229646228646228644227643229643230644229646230645229647227647228646228646229646230645230646229647227653226653227651227650228650228650229651230653228655227655226653227651228651229651230653228654227657226657226656227656227655230654228657228657227659226660226659226657227657228657228659228659227662000000226661227659227659228659228660230662000000000000000000226661228660228660230662229664000000000000000000000000227662230662229664000000000000000000000000000000000000229664000000000000000000000000000000000000000000000000000000000000000000000000227219000000000000000000000000230219228220228220000000227219229218000000230219230220000000000000228220000000000000230219230220000000000000227223000000228220228220230220000000000000000000000000227223000000000000000000000000229224000000227226000000000000000000229224000000230225230227227227227226000000000000000000230225231227230229229228227227227226000000230225231227230229228230227230228230229228230229230229230230230231228233228233228232227230228230230231231232231233229234228234228233228232228232231232231233230234229235229235228234228233228233231233230234230235230240229240228239228238230238231238230239231240228247228247228246228245229245230245230246230249230249228248228247228246229246230246230249230250229251229251228248228247228247230249230250231250230251229251229251228248230249230250231250230250228253228252228251229251230251230250231252231253228253228253228252228251229251231252231253231254229257227256227255228253228253231254229254231255228257227256227256227255229254229254231255229257)
 (.leaf 228258227259227258227256228257229257229259229259229262227260227260227259228258229259229261229261000000228264229265227263228264000000000000000000229394228394229391228390229390230390230391229393230397229398229397228396230395231395231395230398230404228405229404229402230402231402230402231404228408227409227409227407229406230406230407230408229411227409227409227409229407230407230408230409228412228412227409227409228408230408230409229411228414228413227413227413228413229412229414230415229417228415227415228413228414230415229414230415228417227417228415227415229414229414230415229418228420228421228420228419228419229418229420230421229423228423228422228421228420230421230422230423230424227424228423228422228421230422230423230424230425229426229425227424230424230424230425231425000000228428229429229426230427000000000000000000000000000000000000228428000000000000000000000000230448228449000000000000000000000000000000000000230452229452229452229450229449230451000000000000000000000000228452229452230452000000000000000000000000000000000000228452228454000000000000000000230593228593227592229592229591230591229592230593230594227595228593227592229592229592230593230594230595227595227595228593230593230593230594230595230596228596227595227595230594230594230595230596230598228597228596227595230595230595230596230597230598229600228597228596230596230596230597231600229601228601229600228597230598230597231600231600228604228604228603228602228601231601231603230604228606227606228606228605228604229604230606229606228609228609227607227606228606229606230606231608))
 (.node 1 (.leaf 229611227610227609228609228609231608231609230611228612228612227610227609228609231609230611230612228614227614228612227612228612229612229614229614228617000000228617227615228614229615230615230616228618228617000000228617228617230615230616229618228620228619228618228617228618229618229620229621229626229626228625228624229622230624230625230626229627228627229626228625229623230625230626230627229631229631228630228629230628231629231629230631230640229641228639229639229638230640231640231640229646228646229643229643229642230642231644231645230645229646228646229643230644231644231645230645230649228648229647228646230646230646230647231649228650228649228648229647229647230647231649231649228650228650228649228648230649231649231649231651230653227653228651228650228650231651231652231653228654228655227653228651229651231652231653231653230654227655228655227653230653231653231653231655228657227657227655228655228654231653231655231656228657227657227657227655230654231655231656229657228659227659228659227657228657229657231659231659228659227659227659228659228659231659231659229660230662227662228660227659228659229660230662231662229664000000227662228660228660230662231662229664000000000000000000227662230662231662229664230665000000000000000000000000000000230665000000000000000000000000000000000000000000000000000000000000000000000000000000000000000000000000000000000000000000000000228220000000230219231219231220000000000000000000000000228220230220231220000000000000229224000000000000000000000000000000000000232223000000000000000000000000000000000000232223232225)
 (.leaf 230230229230230229230227231227232228230229231230230234229234228233228232231232232232232232232234230235229235229234228233231233232232232234231235231244230245230244229243231243232243231244232243230249228247229246229245230245232246231246231249230250230249228247229246230246231246231249231250231253228253229251230251230250231250231251231252231254228253228253229251231252231251231252231253229254229254228253228253231253231252231253231254231255229257229254228253231254231253231254231255229257228257229257229254229254231254231255232256229259229259228257229257231255231255232256232258229259228258229259228257229257232256232258232258229261229259228258229259229259232258232258231259229261229262229259228258229259232258231259231260000000229263229262229259229261231259231260000000000000228264229263229262229261231260000000000000000000000000228264229263000000000000000000000000000000000000000000228264000000000000000000000000229393229394229391229390230390231390231391232394230395230395229394229391230391231391232394231395231395230395230395229394229393232394231395232395230398230397229395230395231395232395231395231398231401230400229400230398231399231399231400232400231404230404230402230402231402232401231404232404229411228412229411228408230408231408231409231410229412228413228412229411230409231409231410230412230415228414228413228413229412230412230414230415229418228419228417229417230415230416231418230418230421228420228419228419229418230418231418231421230422228421228420228419229420231418231421231422000000230427229427230425231425000000000000000000))))))))
 (.node 64 (.node 32 (.node 16 (.node 8 (.node 4 (.node 2 (.node 1 (.leaf 229452229449230449000000000000000000000000000000000000228454230452000000000000000000000000000000000000000000228454000000000000000000000000000000000000000000000000000000000000000000000000231588229588229587000000000000000000000000231588229589229589229588229587230587000000231588231589229592229592229591230591230590231590231591231592231600229601230598230598230597231597231600231601231601228601229601230598231600231600231601000000231603229603228601229601231600231601000000232603230604228604229603228601231601000000232603231604229604228604228604229603231603232603231604232605229606228606228606228604229604232605232605232605231608228609229608228606229606232605230606232608231609228609228609229608230606230606232608232609230611229611228609228609231608232608232609232610230612228612229611228609231609232609232610230611229615228614228614228613229614230613232614232615229618228618228617228617230615232615230616231617229620228619228618228617230616230616231617231618229621228620228619228618229618231617231618232621229621228620228620228619229620231618232621231622229622229621228620228620229621232621231622230623230624229622229621228620229621231622230623230623230631229631229630230628231629231629231630231631231632230632229631229630231629231630231631232632230640229638229637230637231637232637232638231638231640230640229638229637231637232638231638231639231644230644229642230642230641230642232643232644231649230649229647230646230646232646232648232648231651228650228650230649231649232648232651232651231652229651228650228650231649232651232651232652)
 (.leaf 231653230653229651228650231651232651232652232652231656228657230654228654231653231653232655231655229657228657228657230654231655232655231655231658231659228659228657228657231656231655231658231659231659228659228659228657229657231658231659230660229660228659228659228659231659231659230660230660231662230662228660228659229660230660231662231663000000000000000000229664229664230663231665230665000000000000000000000000000000230665000000000000000000000000230220230219231219232219232220000000000000000000000000230220231220232220000000000000232223229224000000000000000000000000000000000000232225000000229224000000000000000000000000000000230226230225000000229224232223000000000000233226232228231227230225000000232225000000233226233227232231230231230230230229230229231228233229232231232232231233231232230231232231232231233231233232231236230236230235230234232234233234232235233236232243231243230242230241232241233241233242233243231244230244231243230242232242233242233243233243232246230245230244231244232243232243233244233246231249230249230246230245232246233246233247233247231250230250230249230246231246233247233247233249232256229257231255229254231254232254231255232256232258229259229257231255231255231255232256232257232258229259229259229257232256232256232257232258000000000000229261229261231259232259232260000000000000000000000000229261231260232260000000000000000000000000000000000000000000000000000000000000232394229393230391230390231390232390232391232394231395230395229393230391231391232391232394233394232395231395230395229393232394232394233394233395))
 (.node 1 (.leaf 231398230398231395231395232395233395232395233397231399231399230398231395231395232395233397232399232404231404230402231402232401232401233403233403230412229412229411230409231409232409233411232411230414229414229412229411231410233411232411233413230415230415229414229412230412232411233413233414230415229414230415229414230414233413233414233415230416230415229414230415230415233414233415233415231418229418230415229414230415233415233415231417000000231425230425230424230424232424232425000000000000000000230451000000000000000000000000000000000000000000000000230451000000000000000000000000000000000000000000000000000000000000000000000000000000000000000000000000000000000000000000000000000000230587000000000000000000000000000000000000232593230593229592230591231591232591233592232593231600231600230597230596231596232596232597233600231601231600231600230597231597232597233600233600231604230604231603231601000000231601232603232604232605229606230606229604232605232605000000232605230606230606229606230606232605000000232605232608232608231608230606229606232605232605232608232609230611230612230611231609232609232610233610233612232612229612230612230611232610233610233612233612230613229614229612230612230611233612233612233612232614229614229614229612232612233612233612233615232615229615229614229614230613233612233615233615232615230615229615229614232614233615233615232615230616230616230615229615232615233615232615233617232621229621229620229618231617233618232618232621231622229621229621229620231618232618232621233621230623229622229621229621232621232621233621233622)
 (.leaf 230624230625230624229622230623233622233623233624230625230626230625230624230623233623233624232626230626230627230626230625230624233624232626233626230628230628230627230626230625232626233626233628231629231629230628230627230626233626233628232629231630231629231629230628230628233628232629233630230642230641231640231640231639233640233640233643232643230642230641231640231640233640233643233643232644231644230642230641230642233643233643233643232648230647230646230645231645231646232646233648232648231649230647230646232646232646233648233648232651231651231649231649232648233648233650233652232655231655231653231653232652233653232653233656231659231659229657231656231655233656233657231659231662230662229660231659230660231659233660231662231663231662230662229660230660233660231662231663230665000000230665229664230663231663231665231665000000000000000000000000230665231665000000000000000000000000231220231219232219233219000000000000000000000000000000231220232220000000000000000000000000232225232223000000000000000000000000000000233227232228230226232225000000000000234226232228231228230229232228230226233226234226232228234229232231232231231230230229231228234229234229233231233231232232232231231230233229234229233231234231232235231235232234232232233232234232234233234234233238232238231237231236233236233236233237233238233239231239232238231237233237233237233238234239233241232241232240231239233239234239234240234241233244231244232243231244233243234242233243233244233246232246231244232243232243233243233244233245233247231249231246232246233246233245233246234248)))
 (.node 2 (.node 1 (.leaf 233249231250231249231246233247233246234248234248233250232250231250231249233247234248234248233249231252231251231250232250233250233249233250234252233253231252231251231250232250233250234252234253231253231253231252231251231252234252234253234253231255231255231254231253231253234253233254233255000000000000231260231259232259233261233262000000000000000000000000231260232260233262000000000000000000231389000000000000000000000000000000000000233394231395232394231391232391232392234394234394233397231398231395232395233395234395234395233396232399231399231398231395232395234395233396233397233400231400231399231398233397233396233397233400233403231404232401232401233401234400233401233402233403232404231404232401232401233401233402234403231408231407230406231405231406233405233406234409231409231408231407230406232406233406234409234409233411231410231409231408231409234409234410234410233413230414230412231410233411234410234412234412233414230415230414230412232411234412234412233413233415230415230415230414233413234412233413233414233415230416230415230415233414233413233414233415231417231418230416230415233415233414233415233416231418230418231418230416233415233415233416233417231419231418230418231418231417233416233417233418231420231421231418230418231418233417233418233419233422231422231421231418231419233418233419233422232423231423231422231421231420233419233422233423232424230424231423231422233422233422233423233424000000000000000000000000000000000000000000000000000000000000000000000000000000000000000000233587233592231592231591231590232590232590234591233592)
 (.leaf 231595231595231594232593232593233593232594232596233600231600231597231596232596233596233597233600233600231601231600231597232597233597233600233601231601000000231601231600233600233600233601234602232603232603000000231601233600233601234602232603232604231604232603000000231601234602232603232604232609232608230606232605232605232606233606234608233612232612230611232610233610233611234611234612233615232614230613232612233612234612234613233615233617230616232615232615233615234615233615234617233618231617230616232615232615233615234617233617232621232621231618231617233618233617234618233619233621231622232621231618232618234618233619234622233623230623230623231622233621234622234622234624233624230624230623230623233622234622234624234624232626230625230624230623233623234624234624234626233626230626230625230624233624234624234626233627232629231629230628230626233626233627234628233629233630231630231629230628233628234628233629233630232632232632231631231630233630233630234631233632233640231639231638232638233638234637234639234640233640231640231639231638233639234639234640233640233643230642231640231639233640234640233640233641233643232643230642231640233640233640233641234643231646231645231644232644233643234643233644234646233648232648232646231645231646234646232646234648233650232651232648232648233648234648233648234650233652232651232651232648233648233648234650234651233656232655231653232652233653233652234654233656233657231658231655232655233656233656234656234658231659231659231658231655233656234656234658234658231659230660231659231658233657234658234658234659))
 (.node 1 (.leaf 233660230660230660231659231659234658234659234659231662231662230660230660231659234659234659233660231663231663231662230660233660234659233660233661231663230663231663231662231662233660233661232663231665230665231665230663231663232663234665232665000000000000000000230665231665232665000000000000000000232220232219232218233218234218234219235221000000000000232220232219233219234219235221235222000000000000000000232220000000235221235222235223000000000000000000000000000000235222235223235224000000000000000000000000000000235223235224234224234226233226000000000000000000235224234224235226234229233229231228233227232228233227234229235229234231233231232231233229234229235229235231234232234234232235233234233232234232235232235233235234233237233237233236232235234234235234235235235236234248233249233247233247233246234246234247234248234252231252232250233250233249235250235250234251234253233253231252232250233250235250234251234252234257232256231255232254233254234254234255234256232258232257232256231255233255234255234256235258233260232258232257232256234257234256235258234258233261232259232258232257232258235258234258233261232392232391232390000000000000000000234390234391234394232394232391232390233390234390234391234392234394233394232394232391232392234391234392235394233400233400232399233397233396235397234399235399234400232401233400232399233397234399235399235400234409231408232406231406233405233405234406234409234409231409231408232406233406234406234409235409234410232409231409231408234409234409235409235409234410233411232409231409234409235409235409235411)
 (.leaf 234412233413232411233411234410235411235412234412233422233422231420231419233418234418234421234422233423232423233422231420233419234421234422234423000000000000000000232425232425233424000000000000000000000000000000000000000000000000000000000000232589232588000000000000000000000000235588235588232590232590231589232588232589235588235589234590234591232591232590231589233589235589234590234591232594232594232593233592233592234592234593235595232596231595232594232593233593234593235595235596233600233600232597232596233596235596234597234598233601233600233600232597233597234597234598235601232604232604232603231601234602234602235603235603232604232605232604232603232603235603235603234605233606000000232605232604232604235603234605234606232606232605000000232605232604234605234606233606234608232609232608232605232606233606233606234607233610232610232609232608233606233606234607234610233611233610232610232609234608234607234610234611233615233615233612233612234612235612234614235615234615233615233615233612234613234614235615235615234617233617232615233615234615235615235616235617234622233621232621232618234618234618235620234622233627233626232626233624234624235624235625235626234632233632232632232631234631234631234632235633234643233643233643233640233640234640235642235643234646231646233644233643234643235643235645234645232646232646231646233644233644235645234645235647234648233648232646231646234646234645235647235648234650233650233648233648234648235648235650235650234651233652233652233650234650235650235651235652233656233656232653233653233652235653235654235654))))
 (.node 4 (.node 2 (.node 1 (.leaf 234656233656233656232653234654235654235654235656234659231659231659233657234658235657234657234658234659233660231659231659234658234657234658234659232663231663231663231662233660233661233661234662234665231665231663231663233661233661234662234665232665231665231665231663232663234662234665235665000000000000231665231665234665234665235665000000000000000000000000231665232665235665000000000000000000000000000000000000000000000000000000000000235221000000233219233218234218234219235219235220235222000000000000233219234219235219235220000000235223000000000000000000235221235220000000235224235224000000000000000000235222000000235224236224235226234226000000000000235224236224236226236226234229234229232228234226235226236226236227235229235229234229234229232228233227236227235229235230234232234231233231234229235229235230235231236231235236233237233236234234235234236234236235236236235237233238233237233236235235236235236236236237234239234239233238233237235236236236236237236238235240234240234239233238235237236237236238236239235250233249234248234248234247234248236249235249235250233250233249234248234248236249235249234251233261233261233260232258235258235257235258235259233262233262233261233260234258235258235259234262000000000000233262233261233261235259234262000000235394234394234394232392234391235391235392236394235397233396234395234395235395236394236395235398234399233397233396234395234395236395235398235399235399233400233397233396235397235398235399236399233405233404234403233402234402234402234403234405234409234409233406233405233405235405234406236408)
 (.leaf 235409234409234409233406234406234406236408236408235412234412234410234410235409236409235410235411233416233415233414233413233413234413235414234417234421233419233418233417233417235417235420236420234422233422233419233418234418235420236420236422000000000000000000232425233424235425000000000000235588233587000000000000000000000000000000000000235588232589233587000000000000000000000000235588235589233589232589233587235588000000235588234590235595232594233593233592234592236593236594235596235596232596232594233593234593236594235596236595235596233596232596232594235595235596236595235596235601233601233600233597234597235597235598236600234602234602233601233600234598235598236600235602235603232603234602233601235601236600235602235603234605232604232604232603235603235603236603236604234606233606232604232604235603236603236604236605234611233611233610234608234607234607236609236610235617234617233615234615235615236615236616235618235620233619234618233617235618236618235620236620234622234622233619234618234618235620236620235622235622234622234622233619235620236620235622236622235624234624234624234622235622236622236623236624235626233627234626234624235624236624236625235627234629233629234628233627235626235627236627235629235639234639234637234637235636235636236638235638235642233641233640234640234639235639235640235641235643234643233641233640234640235640235641235642235645233644234643234643235643235642235643235644235648234648232646234646234645235645236646235647235650234650233648234648235648235647236649236650235653233652234651234651235651236651236652236653))
 (.node 1 (.leaf 235654234654233652234651235652236652236653236654235656234656233656234654235654236654236654235657233661233660234659234659234658235658235659236660233661233661233660234659234659235659236660234662234665234665232663233661233661234662235662235665235665232665234665232663234662235662235665234666000000000000000000000000000000000000000000000000000000000000000000000000000000000000000000000000236226235226234224235224236224236225237226236227235229234229233227235226236226236227000000237228235230235229234229233227236227000000237228237230236239235240234239235237236237237237237238237239236240235241235240234239236238237238237239237240236243234243234242235242236242237241237242237243236245234244234243234242235242237242237243236244236245234245234244234243236243237243236244237246236247234246234245234244236245236244237246236246234248234247234246234245236245237246236246237247236249234248234247234246236247236246237247236248234252234251235250235250235249236249236250236251234253234252234251235250234251236250236251237253234256234255234254234253234254235253235256235256234262233262233261234258235258236258236259236262000000000000233262233261235259236259236262000000000000000000000000233262234262236262000000000000000000234390000000000000000000000000000000000000236394235394234392234391235391000000237392236393235398235397234395235395236394236394237395237397236401234401234400235400236400236399236400237402234402234402234401234400236400236400237402236402234403234403234402234401236401237402236402236403234405233405234403234402234402236402236403237405)
 (.leaf 234406234406233405233405234405237405237405237408236408234409234406233405235405237405237408237408236408235409234409234406234406237408237408237409234413233413234412235412235411235412236412236413234417233416234414233413234413236413236414235416235420234418233417234416234417235417236417237420236420234421234418233417235417236417237420236421236423234423234422234421236420236421237421236423235424234424234423234422236422237421236423236424235425233424234424234423236423236423236424236425236591234590235589235588235588236588237590236590236591234591234590235589234590237590236590237592236593234592234591234590236591236590237592237593236594234593234592234591236591237592237593236593235596235595234593234592236593237593236593237595236600235601234598234597235597236599236600236601235602234602235601234598235598236600236601237601236605234606234605235603236603236604237604237606234606233606234606234605236604237604237606237606234607233606233606234606236605237606237606236608234607234607233606233606234606237606236608236609236609234610234607233606234607236608236609236610236610234611234610234607234607236609236610236611235612235612234611234610236609236610236611237611236612235612235612234611236610236611237611237611236614235615234614235612236612237611236614237615236615235615235615234614236613236614237615236616236620235620234618235618236618237618236620236621236622235622234622235620236620236621237621236623236624235624234624235622236622236623237623237624235630234630234629235627236627237627236629236630235634235633235633234632236632236632236633236634)))
 (.node 2 (.node 1 (.leaf 236638234637235636235636235635236635237637237637236646235647234645235645235644237645237646236646236650235650235650235648235647237648237649237649235657235656235654235654236654237654236654237656236660233661234659234658235658237658237659236660234662233661233661234659235659237659236660237661235665234665234662233661234662237661235662236663234666235665234665234662235662235662236663235666000000000000000000000000000000236667000000000000235218234219235217000000000000000000237217237218235219235219234219235217236217237217237218237219237221235220235219234219235218237218237219238221237223000000235220235219235219237219238221238222237223235224000000235220237221238221238222238223236225236224235224000000237223238222238223236225237230235230235229236227000000238228238228237230237231235231235230235229237228238228237230238231237232236231235231235230237230237230238231238231237234236233236233236231237232238231237233238233237253234253234252234251236250236250236251238253235253234254234253234252236251236251238253237253235256235254234254234253237253238253237253238256235256234256235254234254235253237253238256238256237257234256234256235254235256238256238256238256235257235257234256234256235256238256238256237257236262234262235259235258236258237258238260000000000000000000234262235259236259238260000000000000000000235391000000000000000000000000000000000000237392235392235391000000000000000000000000000000237397235398236395236394236394237394237395237396237398235399235398236395237395237395237396237397237398236399235399235398237397237396237397236399)
 (.leaf 237405234405234403234402236402236403237403237404237405235405234405234403236403237403237404238406237408234406235405234405237405237404238406238407237408236408234406235405237405238406238407238407235412235411235410236409236409238409237410237411235416234417235414234413236413237413238415237415235417234417234417235414236414238415237415238417237420235420235417234417235417238417237419237420236421236420235420235417236417237419237420237421237590234590235588000000000000000000000000237589237593236593236591236591236590237590238592237592236599235597235596236595236595238596237598236599236600235598235597235596236596237598236599000000236604236603235603235602237601237602237603238603236608234607234606236605237606237606237607237608236609234607234607234606237606237607237608237609237618236618235618236616237616238615238617238618236621236620235620236618237618238618237618238620237627236627235627236625236624237626238626237626236630235630235629236627237627237626238628237630237637235636235635236634236634236634236635237636237637236638235636235635236635236635237636238639237640235639235638236638237637238639238639238639235643235642235641235640236640237640237641236643237645235644235643235642235643236643238644238645237646235645235644235643235643238644238645238645237648235647236646235645237646238645238647238648237649236649235647236646236646238647238648238648237656235657236654236654237654238654238654237655237658235658236657236657236656238657238657237658237659235659235658236657236657238657237658237659237661234662236660235659237659237659237660237661))
 (.node 1 (.leaf 235662235662234662236660236660237660237661238662235666234666235665235662235662238662238665237666236667000000234666235665236663238665237666237667000000000000000000234666235666237666237667000000238221237221235219235218237218237219239221239221238223237223237223237221238221239221239223239223238225237226236225237223238223239223238225239225238226236227237226236225236225238225239225238227238228237228000000236227238226238227000000000000238231237231237230237228238228000000238230238231238244236244237243237242238242238242239244238244238246237246236244237243238244239244238244239246236249236249236248237247237247238247238248239249236250236250236249236248237248238248239249239250236251236251236250236249236249239249239250239251238253237253236251236250236250239250239251239253238256235256235253237253238253239253238253238256238256235256235256235253237253238253238256239256238256237257235256235256238256238256239256239257000000236262236259236258237258237259000000000000000000000000236262236259238260000000000000000000000000000000000000236262000000000000000000000000236394236393237392000000000000000000000000238393236400236399237398237398237397237398237398237401236400236400236399237398236399237398237401237401238407237408237405237405237404238404239405238406238407237408237408237405238406239405238406238407238415236414236413236412236412237412239414238414238417235417235416236414238415238414239416239417237419236417235417235416237415239416239417238417237420237420236417235417238417239417238417237420237424236424236423237421238422238422000000000000)
 (.leaf 238592237592236590237590237589238589238590000000237598236596236595237595237594239595238595238598236599236599236596236595238596238595238598238599237602237601236601236600000000237599238601238602237607237606237606237604238605239605239606237607238611237611236611236610238609238610239610239611238613236614237611237611238611239611238611238612238614237615236614237611238612238611238612238613238614236616237615236614238613238612238613238614238620236621236620237618238618239618239620239620238621237621236621236620237618239620239620238620238623237623236623237621238621238620238621238624238626236627236624237624238624239624239626239626237630236630236629237627237626239627239628239628237631236631236630236629238628239628239628237631236634236634236633236632236631237631238633238634236634236634000000236634236634238634238635237635238639236638237637237637237636238638238639000000238639237640236638237637238639238639000000238639236643235643236641236640237640239641239641238644238644235643235643236641237641239641238644239644238645237645235643235643236643238644239644239644238648237648236646237646238645238645238646239648238651237651237649237649238648239648238649239651238657236657236656237656237655239656239657238657238665236663235662237661237661237662238662238665237666235666236663235662238662238662238665239665237667236667235666236663238665238665239665000000000000000000000000000000000000000000000000000000237219237218237217000000000000000000239217239218239221237219237218237217238217239217239218238220239225238225236225238223239223240223239223239226)))))
 (.node 8 (.node 4 (.node 2 (.node 1 (.leaf 238231238231237230238228000000239229239230000000239234238233237233238231000000238231239233240233239240238240238238238238239238240238240239240240239244238244238242238241239241240241239242240244239246238246238244238244239244240244240245239245239249236249237248237247238247238248238248239249239250236250236249237248238248238248239249239250239251236251236250236249239249239249239250239253239253238253236251236250239250239250239253240254238256238256237253238253239253240254240255239256239256238256238256237253238253240255239256239257237259237258237257238256239257240257239257239258000000238260237258237257238257239257239258000000237395237394236394000000000000000000000000239394237396237395237394236394238393000000239394239395237398236399237397237396238396238397238397240398237401236400236399237397237398238397240398238400237404237403236403237401238401238402239402239403239405238406237404237403237404239403238404239405237412237411237410238409238409238410239410239411237412236412237411237410237411239410239411240413239414237413236412237411237412239411240413239413239417238417237415238415238414240414240416240416237420237420237419238417239417240416240419240420237421237421237420237419238417240419240420239421238422238422237421237420237420240420239421239422000000237423238422237421237421239421239422000000000000000000237424237423000000000000000000000000000000238592237590237589238589000000239590240592238599236599237598238596238595239595240597240598237607237608237607237606239606240606240606240608237608237609237608237607237607240606240608240608)
 (.leaf 238610238609237609237608237607240608240608240609238618238617238615238614238614238615240617239618239620238620237618238618239618240618240620240621238624238623237623238621238620240621240622240623239626238626237626238624239624239625239626240626239628238628237626238626239626240626240627240628237631237631237630238628239628240628239628239631237631236631237631237630239628239628239631239632238633237633236631237631237631239631239632238633238634236634237633236631237631239632238633238634238638237636236635236634237635238635238635239636238639238639237636236635238635238635239636238639239641237640238639238639000000239640238639239640239641237641237640238639238639238639239640239641238644236643237641237640239641239640239641239644239644238644236643237641239641239641239644000000239651238651238649238648239648240648240650239650239656237655238654238654239653239653240654240655239657238657237655238654239654240654240655239656238665238665238662237661237662238661239662238665239665237666238665238662238662239662238665239666000000000000237667237666239665239666000000000000000000000000000000237667000000000000000000000000000000000000000000000000000000000000000000000000238220239221237219238217239217241217239218240221240221239221239221237219239218239218240221240222240223239223239223239221240221240222241222241224239226239225238225239223240223241224241225240226239230238230000000000000000000239227240229239229239233238233000000238231000000239230240232240233240233239234238233000000238231240232240233241234239237238237238236238235240234241235241235240237))
 (.node 1 (.leaf 239238239237238237238236240235241235240237240238240244239244238242239241240241240241241244241244238248238247238246239246239245240245240246239248240254239253239251239250239250240252239253240254239256238256238253239253240254240254240255239256239257239256238256238253240255240255239256239256000000000000237259238257239257241258000000000000238397237398238396237396239395239396241397241398240398237398237398238396238397241397241398241398238400237401237398237398238397241398241398240401239402237401237401237398240398241398240401239401238404238404237404238402239402240402240403240406238407238407238406239405239405239406240406240407240413237412237412237411239410239411241411240412240416239416238414239414239413241413240414240415240420237420238417239417240416241418241418241420239421237421237420238417240419241418241420240421239422238422237421237420240420241420240421000000240592000000238590238589000000000000241592241592238593238592000000238590239590241592241592240594240594238593238592000000240592241592240594000000240594239595238593238592238593240594000000240594240597238598238595239595240594240594239595241597240598238599238598238595239595239595241597240597238599237599238599238598240597241597240597241598238600238601237599238599240598240597241598239600239603239603238602238601238600239600239602239602240608237608237607237607240606241606240608241608240609238610237608237607240608240608241608241609240610239610238610237608240608241608241609240609238612238612238611239611239610241611241612241613240614238613238612238611238612241612241613241614)
 (.leaf 238615238614238613238612238612241613241614241615240617238615238614238613240614241614241615241616239618238618238615238614238615241615241616241617240618239618238618238615240617241616241617240619240621239620239620239618240618240619241619241621240622238621238620239620240621241621240622241622240623238624238621238620240621240622241622240622239625239624238624238621240622241622240622241625239631237631239628239628240628241628241628241630239632237631237631239628239628241628241630240632238634238635238634238633238633240633240634241635238635237635238635238634238634240634241635241635238635238635237635238635238634241635241635239636239640000000238639238638239636239637240639239640238639238639000000238639238639240639239640240639239644238644239641239641239640240640240641239644000000239644238644239641239641240641239644239644238646238645239644239644000000239644239644240645239648238646238645239644239644239644240645241648240648239648238646238645238646240645241648241648240650238649239648239648240648241648241648241649240655239656239654239653239653239653240654240655238660237661238659238658239658240658240659241661238665238665238662237662238661239661241664239664000000000000000000000000000000000000000000241216241217239217000000000000000000000000241216241217240221238220239218239217241217241217240218242221240222240221238220239218239218240218242221240221240226239226239223240223241224242224242224242225239226000000239226239223241225242224242225240226240229239229000000000000239226240226241228240228240232238231000000239230239229240229240229241232)))
 (.node 2 (.node 1 (.leaf 240233239233238231000000239230240229241232241233240238239238239237240235241235000000241237241238241244239242240241239240240240242240241243242242241244240244239242240241240241241243242242242244239248238248238246239245240245240245240246241247239248238248238248238246240246240246241247240250239250239249238248238248239248241247240250240250239253239253239250239249239250240250241250241253240255240255240254239253239253241253241254241255241257240257239257239256239256242256242256242257000000239258239257240257241257242257241257000000000000000000239258239257241258241257000000000000239396239395239394000000000000000000000000241395241397238397239395239394240394000000241395242397241398238397238397239395239396241395242397242397240401238400240398238397241398242397241398240401239401239402238400240398241398241398240401240401240406238404239403239402240402240403240403241406239406239405238404239403240403240403241406240406239409239408238407238407240406240407241407240409241411239411239410238410240409240410241410241411241418240419240416240416240415241417242418242418241420240420240419240416241418242418242418242420241592239590000000000000000000000000000000241590241592240592239590000000000000000000241590242591000000240594238593240592241592242591241592242594239595239595240594240594000000242594242596242596241597240597239595240594240594242596242596242596239600238600238599240598240597241597241598241599239602238602238600238599241598241598241599241602239602239603238602238600239600241599241602241603241604239604239603238602239602241602241603241604)
 (.leaf 241604240605239604239603239602241603241604241605240606240606240605239604241604241604241605241606241608240608240608240606241606241607242608241609241612238612239610240610240609242611242611242612241613238612238612239610241611242611242612242613241614240614238612238612241612242612242613242614241616240617238615240614241614242614241616242617241617239618240617238615241615241616242617242617241625239626239625240623240622242622241625242625240627240626239626239625241625241625242625242626241630239631239628240628241628242628241628242630240632239632239631239628241628241628242630241630240633238633239632239631241630242630241630241633239636238635238635238634241635241635242635241635239637239636238635238635241635242635241635241636240639238639239636238635239636241635241636241639239640239640238639239636239637241636241639240639239644239644239641239640240640241640240643240643239644239644000000239644239644240643241643240645241648239648238646239644239644240645242647242648241648240648239648238646240645242647242648242648241649240650240648240648241648242648242648241649241661238660239659239658240658240659240659241660239661238661238660239659240659240659241660241661241664239662238661238660241661241660241661241664239664238665239662238661239661241661241664241665239664239666238665239662241664241664241665000000000000000000239666238665239664241665000000000000000000000000000000239666239664000000000000000000240218239218241217000000241216243217242217243219242221240221239218241217241217242217243219242221240221240222240221239218240218243219242221242222))
 (.node 1 (.leaf 241223241222240222240221242221242221242222243223241228239227239226240226242225243225243225242228240228240229239227239226240226243225242228241228241232240232239230239229240229241229242231242232241233240233240232239230240229242231242232242233241238240238240237241235000000241235242237242238241243240241240240241240242240242239243241242241242242241244240241240240242240243241242241243243240245240245240244241244242244242243242244242245240246240246240245240244241244242244242245242246240250239248239248240246240246242246243248243248240250239250239248239248241247243248243248241250241253239253240252239250240250241250243251241253241254240254239253240252241250243251241253241253242257241257239256239256242256242256243256242256000000000000000000241258241257000000000000000000000000240394000000000000000000000000000000000000242397241397239396240394000000000000242395243396240401240401241398241398242397242397242398241400240402239402239401240401240401241400241400242401240403240402239402239401240401241400242401243403240403240403240402239402240402242401243403243403241406240406240403240402240403243403243403242406240406239406240406240403240403243403242406241406240409239409240407240406240407242406242409241409241417240415240414241413241413241414243416242417242418241418240415240414241414243416242417242418000000240421241420241418242418243419000000000000000000000000000000240421000000000000000000000000242591241592241592000000000000000000242590243592242594000000240594241592242591243592242592242593242596240594000000240594241592242592242593242596)
 (.leaf 242596239595240594000000242594242593242596243595242596241597239595240594242596242596243595242596241602239602239600241598241598241599243600242600241603239602239602239600241599243600242600241602242611241611240609241609242609243610243610243611242619241619240619241617242617243617243618243620242621240622241621241619242619243620243620243621241625241625240622241622242622243622242622242625242625241625241625240622242622242622242625243625242627241627240627241625242625243625243626243627242630241630241628241628242628243628243629242629241633240633240632241630242630242629242632242633241634240634240633240632241630242632242633243633241639240639239637239636241635242635242638241639240639239640240639239637241636242638241639241639240643240641240640240639241639242639241640242641240643239644240641240640241640241640242641241643240645239644239644239644240643241643243644243646242647240645239644239644241643243644243646243646242648241648240645239644240645243646243646243646242648241648241648240645242647243646243646242647240651240650241649241648242648242648241649241651240657240657240656240655240656241655241656243658240659240658240657240656240656241656243658241660240659240659240658240657240657243658241660241660241664241664239661241661241660241660241661241664241665239664241664239661241661241661241664242665000000000000000000239664000000000000000000000000243217241216000000000000000000000000000000243216243219240218241217241216243217243216243217243220242221242221240218241217242217243217243220243221242222240221242221240218243219243220243221242221))))
 (.node 4 (.node 2 (.node 1 (.leaf 243224242224242224241223243223243223244223244225242228241228240226242225243225000000000000243228241228240228241228240226243225000000243228242228242231240229240229240228241228242228243228243231242232241232240229240229241229243228243231243232242237241237000000241235241234242234244235243237242238241238241237000000241235244235243237244238243248241247240246240245242245243245242246244249243248240250241247240246242246242246244249244249241250240250240250241247243248244249244249244250243251241250240250240250243248244249244250243250241253241253241250240250241250244250243250244252241253241254241253241250243251243250244252243254241254241255241254241253241253244252243254244255242256242256241255241254241253243254244255244255243256242256242256241255241254244255244255243255000000000000241257242257242256000000000000000000243396242397241395000000000000000000000000243396241400240401241398242397242397243397244398242400243403240403240403240402242401242402242402243403242406241406240403240403243403242402243403244406241406240406241406240403243403243403244406244407242409241407240407240406241406244407244407242408243410241410240410240409241409244409244411244411241412241411241410240410243410244411244411244411241414241412241411241410243410244411244411243414241414241413241412241411241412244411243414244414243416241414241413241412241414243414244414244415242417241417241414241413241414244414244415244417242418242418241417241414243416244415244417243418000000000000242420242418243419000000000000000000243595242596242596242594242593243593244594243595)
 (.leaf 241598241597242596242596243595243595243596242598241602241603241602241599243600244600244601243601242604241604241603241602242600244601243601243604242605241605241604241603241602243601243604000000243611242611242611242609243610244609243611244611243620242619241619242617243617000000000000000000243621242621241621242619243620000000000000000000242625241625242622242622243622000000000000244624243625242625241625242622242622000000244624244625242633241633241630242630242629242630243632242632243635242635241635241634243633243634243635244635242638241636241635242635243635244635243635243638241639241639241636241635242635243635243638242639241643240643240643241640241640242641243641244644243644241643240643240643242641243641244644244644243646240645241643240643241643244644244644244645243646242647240645241643243644244644244645244645243646242648242647240645243646244645244645243646241649241649242648242648242647243647244649243649241651240651241649242648242648244649243649243650241653240653240652240651241651243650242651243654241653240654240653240652241652242651243654242654241660240659240657240656241656242657243657243658241660240659240659240657243658243657243658244660241660241660240659240659241660243658244660242661241664241664241661241660241660242661244661243664242665241665241664241661241661244661243664243665000000000000241665241664241664243664243665000000000000000000000000000000000000000000000000000000000000000000000000000000000000000000000000000000243220243219242217243217243216000000244217244220244223000000243223242222242221245221244223244224))
 (.node 1 (.leaf 242228241228242228243225000000243226244226243228243232242232242231241229243228243229244231244232243237242237241235241234242234244235245236244237244238242238242237241235244235245236244237244238244241243241242239243239243238245239245240245241244243243243242241243241244241245241245242245243242246242246242245242244243244244244244245245246244249243248242246242245243245244245245246245248244250241250243248243248244249245248245248245249243254241253241253243251243250245252245253244254244255241254241253241253244252245253244254244255000000000000242256243256243255000000000000000000242400241400242398242397243397243398244398243400242402243403242401241400242400243401243401245403244406242406243403243403242402245403245404245405244407241406242406243403243403245404245405245406244407242406241406242406244406245405245406245407242408242409242406241406244407245406245407244409244409241409242409242406244407245407244409245409244411243410241409242409242408244409245409244411244411241412243410243410244411244411245411244413243414241414241412243410244411245411244413244414244414241414241414241412244411244413244414244415244417242417243416241414244414244415245416245416000000243419242418242417244417245416000000000000000000242590000000000000000000000000000000000000244594242596242593242592243592243593243593244594242598241598242596243595243595243595244596244597242599241599241598242596243596244596244597245599244600243600241599241598242598244597245599244601243604242604241602242600244601000000244603243603243608242608242607242606243604243605245607244608)
 (.leaf 244614242615242612243612244612000000000000000000244615242616242615242612244613000000000000000000000000243616242616242615244614000000000000000000000000243620243620243618000000000000000000000000244624242625242622243622000000000000000000000000244625243625242625242622000000000000000000000000243632242632242629243629243628244628244629244632242632242633242632242629242630244629244632243632243638242638242635243635244635245635243635243638242639241639242638242635243635243635243638243639244644241643242641241640242641243641245642245644244644243644241643242641243641245642245644245644244645243646243646243644244644245644244644244645244649242648242647243646243646244646244647244648242651241652241651241649243649245650243650244651243654241653241652241651243650243650244651243653242657241656241655241654242655243654243655244656244660241660241660243658243657244657244658244661242661241660241660241660243658244658244661244662244661241661241660241660244660244661244662245662243664241664241661241660242661244662245662245663243665242665241664241661244661245662245663000000000000000000000000000000000000000000000000000000000000000000000000000000000000000000000000000000244220243220243217243216000000245216245217245218243220243221243220243217244217245217245218245221244223243223242221243221243220245221245222245223244224244223243223242221245221245222245223244223243228242228243228000000243226244226245226244228244232243232243231243228243229244229246231245232245236244235242234243234245234246234245235245236244238244238243237244235245236245236245237245238)))
 (.node 2 (.node 1 (.leaf 245240243241243238244238245238245239246239246240245241244241243241243238245239246239246240246241245243244243243241244241245241246241246243246243245246242246243245243244244244246244246245245246245248244249242246243245244245246245245246245247245248244249244249242246245246245246245247245248245253244252243250244250245249245249246252245253244255244255243254244252245253245253245254244254243397243396000000000000000000000000000000245396243401242400242400244398244398244398244399246401243401242402242400242400243400244399246401246403245403242402242402242400243401246401246403246403245404243403242402242402243401246403246403245403245405244406243403242402245403246403245403245406245406244407244406243403245404245403245406246407245409244409242408244407245407246407245409246409245411244411244411244409245409246409246410246412244414243414244411244411245411246412246413246413000000243418244417244415245416000000000000000000000000000000000000243418000000000000000000000000000000000000000000000000000000000000000000000000243591243591000000000000000000000000000000245591243593243592243591000000000000000000245591245592243593243593243592243591243591245591245592244594243595243595244594243593243593244594244594244596245599242599242598243596244596245596245599246599244601244600242599242598244597245599246599244601243603243604243601244601000000244601244601244603243605243604000000243604243603244603246604245606245607243607243604000000244603246604245606245607244608243608243607243604243605245606245607246608245608243609243608243607245607245607246608000000)
 (.leaf 244611243611244609245609000000000000000000000000000000000000244615000000000000000000000000000000244627244625244625000000000000000000000000244632243632242630243628244628245628246630246631243632242632243632242630244629246630246631244632245635243635243634242632243632244632000000246634245635244635243635243634243633000000246634000000243639242639243638243635243635244636244638245639243640242640242639242639243639245639246640246640243641242641242640242639243639246640246640246641245642243641242641242640243640246640246641246643245644244644243641242641243641246641246643246643245644244644244644243641245642246643246643246644243650243650243649244649244648246649246649246651243653243654242651243650243650246651246652246653243654242654243654242651244651246652246653246653243654242655242654243654243653246653246653246654244661244660243658243657244657244657245658244660000000243665243664244661245662245663000000000000000000000000243665243664245663000000000000000000000000000000000000243665000000000000000000000000245221243220244220244217245217247218246218245220246225245225244225244224244223246224247225247226244228243228244226243226244226247226246226247228244229243229243228244226245226246226247228247230246231244231243229243228244228247228247230247231245232244232244231243229244229247230247231246232245233244233244232244231246231247231246232246233246244244244244243245243246243247243246243246244246245244245244244244243245243246243246244246245246252245252245249245248245248246248246251246252245253245253245252245249245249246251246252246253))
 (.node 1 (.leaf 244398244398243398243397245396245397247398245399246401243401243400244398244398245399247400247402246403243401243401243400244399247400247402246403246403245403243401243401246401247402246403247403246409245409244409245407246407246408247409246410246412245411244411245409246409246410247411247412246413244414244413245411246412247412246413246414246414244415244414244413246413246413246414000000000000245416244415244414246413246414000000000000000000245416245416244415246414000000000000000000000000000000000000245416000000000000000000000000244594243593243593243591245591246591247593246593244594244594243593243593245592247593246593246594244596243595244594243593244594246593246594247597245599244597244596243595244596247597247597247598246599245599244597244596245596247597247598247600244601000000244601245599246599247600247601247602244601244603000000244601244601247601247602247602244603243603244603000000244601247602247602246604246604244603243603244603244601247602246604247604245606243605244603243603244603246604247604246606245607245607243605244603246604247604246606247606000000000000000000245610000000000000000000000000000000000000000000000000000000000000000000000000000000244627000000000000000000000000000000000000246630244629244628244627000000000000000000247630246631244632244629244628245628000000247630246630244632243632244632244629246630247630246630246631000000243633243632244632246631246630246631247633246634245635243633243632244632246631247633000000000000245635245635243633000000247633000000000000)
 (.leaf 244638243638243635245635000000000000246635246636245639243639243638243635244636246635246636247639246640243639243639243638244638246636247639247639246641243641243640243639246640247639247640247641246643245642243641243640246640247640247641247641246644245644245644245642246643247641247643247644246646244646244645244644245644246644247646246646246648244647244646244645245645247646246646246647246649244648244647244646246646246646246647246648246649245650244648244647246648246647246648246649246652244651243650245650246649246649247650246651246653243653244651243650246651247650246651246652246653243654243653244651246652246651246652246653246654243654243654243653246653246652246653246654244655243655243654243654246653246653246654246655244657244656243655243654246654246654246655246656244657244657244656243655244655246655246656245658244660244661244658244657244657245658245658246661246661244662244661244658245658245658246661246662245663245662244662244661244660246661246662000000000000000000000000245663000000000000000000000000247217245216000000000000000000000000000000247216247218245217245216000000000000000000247216247217245220245221245218245217247218247217247218247221246222245222245221245218246218247218247221246222246223245223245222245221245220247221246222246222247228244228245226244226247226248226247226247229247230244229244228245226246226247226247229248230247231246231244229244228247228247229248230248231246232245232246231244229247230248230248231247232245236245237245236245235245235248234248235247237246238245238245237245236245236248235247237247238))))))
 (.node 16 (.node 8 (.node 4 (.node 2 (.node 1 (.leaf 246239245239245238245237245236247237247238246239247243246243246243246241246240247242248242000000246251245249245248245247246247246247247250247251246252246252245249245248246248247250247251246252000000000000244254245254245254000000000000000000000000000000000000000000000000000000000000000000245397245396000000000000000000000000000000247396247398244397245396000000000000000000247396247399245399244398244397245396245397247396247399248400247400244399244398244397247398247399248400247401247402246401244399244398245399248400247401247402247403246403246403246401247402247402247403248403247404245406245403246403247403248403247403000000246408246407246407245406247404000000246405000000246413246413246412246410247411000000000000000000000000000000000000246414000000000000000000000000247593245592245591000000000000248590247591247592247597245596244596244594246594246595248596248598247598245599245596244596247597248596248598248599247600246599245599245596247597248598248599000000247602244601244601246599247600000000000000000000247602244601244601244601247601000000000000000000246604244603244601244601247602000000000000000000247604246604244603244601247602000000000000000000247606245607245606246604247604000000000000000000000000000000246608245607247606000000000000000000000000245628000000000000000000000000000000000000247630246630245628000000000000000000000000000000247633000000244632246631246630247630247633000000000000246634000000244632246631247633000000000000247639245639244638244636246635246636246636247637247639246640245639244638246636246636247637248639)
 (.leaf 247640246640246640245639247639247637248639248639247643246643246643246641247641247640247641248643247646245645245644246644247644248643248645247645247650246651246649246649246648248649247649247650245658244657244657244655246655246656246656247657246661244660245658244657245658247657246658247661246662246661244660245658245658246658247661247662000000000000000000245663000000000000000000000000000000000000000000000000000000000000000000000000247221245220246218247218247217248217248218249221246222246222245220246218247218248218249221247221247224246224246223246222246222247221248223248224248225247225246224246223246222248223248224248225247229247228246226247226248226249226248226248229248235245236245235246234246234249233249234249235247237245236245236245235248234249234249235248237247238246238245236245236248235249235248237249237247241247241246240246239246239248239248240247241247242246240247241246240246239248240247241248242246245246244246243247243000000000000000000000000248246246245246244246243247243000000000000249247246247246246246245246244246245000000249247249247246247246247246246246245248246249247249247248247247250246248246247246246246247249247248247248248247251246251246248246247246247248247248248247251000000000000245254246253246253000000000000000000247399247398245397000000000000000000000000000000246405246405247404246403247403000000000000000000000000246408246405247404000000000000000000000000247409247409246408246405246405000000000000000000247410246410247409246408000000000000000000000000000000000000246414246413000000000000000000000000))
 (.node 1 (.leaf 246414000000000000000000000000248590000000000000000000000000000000000000000000246595246594246593247593247592248592249593249595248596247597246594246593247593249593249595248597248598247597247597246594246595249595248597000000000000247601247600247598248599000000000000000000000000247604246604247602000000000000000000000000000000247606246606247604000000000000000000000000000000000000246606247606000000000000000000000000000000000000000000246606000000000000000000000000000000247630000000000000000000000000000000000000247633246631246630247630000000000000248632000000000000247633246631246630247630248632000000000000000000000000000000247633000000000000000000000000246636246635000000000000000000000000000000000000246636246636246635000000000000000000000000248636248639247639247639246636246636248636248639249639248643247643247641247641247640248640248641248642248649246648246647246646248646249646248647248648248651246651247650246649247649248649247650248651248653246652246651247650247650247650248651248652246654246653246652246651248651248651248652248653246656246655246654246653246654248653247654248655246656246656246655246654246655247654248655247657247661246661245658245658247657247657247658247661247662246662246661245658246658247658247661247661249221247221247218247217248217248217249218250221247221246222247221247218248218249218250221249222248223246222246222247221249221250221249222249223248224247224246222246222247221249222249223249224248229247229247226248226249226250226249226249229248230248230247229247226248226249226249229249230)
 (.leaf 249234248234246234247233249232250233250233250234249237247238247237248235249235250235250236249238248240246239246239247238249237249238249239250239248243248242247242247241247241250240248242249243000000246245247243000000000000000000000000000000249247248246246245247243000000000000000000000000247251247251247250246247248247000000000000000000247252246252247251247250248248000000000000000000000000246253246252247251247251000000000000000000000000000000246253246252247252000000000000000000000000247396000000000000000000000000000000000000000000247399247396000000000000000000000000000000248400248400247399247396000000000000000000000000248401247401248400247399000000000000000000000000000000248403247403247402000000000000000000000000000000000000247403248403000000000000000000000000000000246405000000247403000000000000000000000000000000000000246405000000000000000000000000000000000000247409000000246405000000000000000000000000000000247410247409000000000000000000000000000000000000000000247410247409000000000000000000000000000000000000000000247410000000000000000000000000000000000000000000000000000000000000000000000000249592247591248590000000000000000000000000000000249593247593247592247591249592000000250593250594249595246595247593247592248592250593250594250595248597248596246595247593249593250594250595000000000000000000000000000000000000000000000000000000000000000000000000000000000000000000000000000000000000000000000000000000000000000000000000000000000000000000000000000000000000000000000000000000248632247630000000000000000000000000000000000000)))
 (.node 2 (.node 1 (.leaf 247633247630000000000000000000000000000000000000000000000000247633000000000000000000000000000000246636000000000000000000000000000000000000248639247637246636246636000000000000249636250638249639248639247637246636248636249636250638249638247650247650247649248649248648248648249649249650247654246655246654248653248652249652249653250655247657246656246656246655247654250655250656249656247657247657246656246656248655250656249656248658247661247661246658247657247657248658249660249661247661247662247661246658247658249660249661000000000000000000247662247661247661249661000000000000000000000000000000247662247661000000000000000000250221249221248218248217248217249217251219251221249222247221249221248218249218251219251221250222250226249226248226248225250224251225250226251226249229248229248226249226250226251226250226250227249230248230248229248226249226250226250227250230249238249237248237249235250235250236250237000000248242248242247241248240250239250240250241251241249243248243248242247241250240250241251241251242000000000000248243248242248242251241251242251244000000000000000000000000000000251244000000000000000000249247000000000000000000000000000000000000000000249247249247000000000000000000000000000000000000248248248247249247000000000000000000000000000000247251248248248247000000000000000000000000000000247252247251248248000000000000000000000000000000000000247252247251000000000000000000000000000000248400000000000000000000000000000000000000000000248401248400000000000000000000000000000000000000000000248401248400000000000000000000000000)
 (.leaf 249592000000000000000000000000000000000000250595249595249593248592250593000000000000000000000000000000248597249595250595000000000000000000000000000000000000248597000000000000000000000000000000000000000000000000000000000000000000000000000000248632000000000000000000000000000000000000000000000000248632000000000000000000000000000000000000000000000000248632000000000000000000000000000000000000000000000000000000000000000000000000000000000000000000000000000000000000000000000000250638248639248636000000000000000000251637251638248641248640248639249639249638250638250639250640248642248641248640248639250639250639250640249642248648248648248647249646249646249646250647250648250656248655247654248653249653249654250654250655249660247658247657247657249656249657249657249660249661247661247658247657248658249657249660000000000000000000000000247661000000000000000000000000000000000000000000000000000000000000000000000000000000000000000000000000000000000000000000000000249217248217249216249215250215250215251216251217251219249218248217249216250216251216251217252220251221250221249218248217249217251217252220251221250222249222250221249218251219252220251221000000251225250224249224249223249222251221251224251225251226250226249226250224251225251225252226252226250230249230249229249226250226251226251227251230250231249231249230249229250227251227251230251231250240250239249239249238000000251238000000251240251244000000249243248242251241251242251243251244000000000000000000249243251242251243251244251245000000000000000000000000251244251244251245000000))
 (.node 1 (.leaf 251245000000000000000000000000000000000000000000000000000000000000000000000000000000000000000000000000000000000000000000000000000000250595000000000000000000000000000000000000000000000000000000000000000000000000000000000000000000000000000000000000000000000000000000000000000000000000000000000000000000000000000000000000000000000000000000000000000000000000251637249636000000000000000000000000000000000000251638250638249636000000000000000000000000000000249642248642248641250639250639251639251640250642249654249653249652249651250651251651250652251653249657248658249656250656250655250656252658250658000000000000249661249660249660250659000000000000000000000000000000249661000000000000000000000000000000000000000000000000000000000000000000000000000000000000000000000000000000000000000000000000000000000000000000000000000000000000000000000000251216000000000000000000000000000000000000252214250215250215000000000000000000000000252214251216000000250222251221251219252220253219253220251221251224250224249222250222000000251221253223252224251225251225250224249222251221253223252224252225251230250230250227250226251226252226252229252230251231250231250230250227251227252229252230252231000000000000000000000000000000000000000000000000000000000000000000000000000000000000000000000000000000000000000000000000000000000000000000000000000000251637000000000000000000000000000000000000250642249642250640250639251639252639252640252641250643249643249642250640251640252640252641251643252649250649250648250647250647251648251648252649)
 (.leaf 250652250652250651250650251650251650251651252652252654250654249654250652250652252652252653252654252658249657250655250654252654252654251655253657250658249657249657250655250656251655253657251658000000000000249660249657250658251658252660000000000000000000000000249660250659252660000000000000000000000000000000000000000000000000000000000000000000000000000000000000000000000000000000000000000000000000000000000000000000000000000000000000251216250215251216000000000000253213252214253215251218251217251216250215251216253215253216254218253219252220251217251216252216253216254218253220253220251221252220251217251218254218253220254220253223251221000000251221253220254220254221253223252224251224251221000000251221254221253223254224252225251225251224251221253223253223254224254225252229251227251226252226253226254226254227253229252230251230251227251226252226254227253229253230251239000000251238251237251236253237252238252239252242251242251241251240251240252239252241252242000000000000000000000000000000000000000000000000000000000000000000000000000000000000000000000000000000000000000000000000000000000000000000000000251643250643250642251640252640253640253641252643251645250645250644250643251643252643253643253644251646250646250645250644251644253643253644252646251651251651251650252649252649252650252650252652251655250656252654251653252653252654252654254656253657252658250656252654252654252654254656253656251658250658252658250656251655254656253656253657000000000000250659250658251658253657000000000000000000000000000000000000000000000000000000000000))))
 (.node 4 (.node 2 (.node 1 (.leaf 252214252214000000000000000000000000253213254214254218251218252216251216253215254215254216254219253220253219251218252216253216254216254219255220253223253223251221253220254220254221254222255223254224252224253223251221254221254222255223254224254225252226252225252224254224254224000000000000254226253226252226252225254225000000000000255227253229252229252226253226254226255227255227255228253230252230252229252226254227255227255228254230252235251235252234252233252233254233000000000000000000252236251235252234252234000000000000253235252242252242252241251240252239253239253241253241253244252244252243252242252242253241254243254244000000000000000000000000252246255245000000000000252639252639000000000000000000000000000000254639252643251643252641252640253640254640255642254642252647251647251646251645253644253644253645253647252649251648251648251647252647253647253647255649252650252649251648251648252648253647255649253650252652251651251650252649252650253650254650254651252652252652251651251650252650254650254651254654252654252653252652251651252652254651254654255655252654252654252653252652252652254654255655255655254656251655252654252653252654255655255655255656000000252660251658253657253656255656254659000000000000000000252660251658253657254659000000000000000000000000000000252660000000000000000000000000000000000000000000000000000000000000000000000000000000000000000000000000000000000000000000254709000000000000000000000000000000000000254709000000)
 (.leaf 254709000000000000000000000000000000000000000000000000000000255212253213253213000000000000000000000000255212254214254219254218253216253215254215255215255216256218000000254225254224253223255223000000255224256224254230253230253229254227255227255228256228255230253231253231253230253229255228256228255230255231254233252233253232253231253231255231256232256232253235000000252235252234000000000000255233256234253236253237000000252235000000255233256234254236253239252239252239252238253237254237256238256239253241252241252239252239253238256238256239256241253241252242252241252239253239256239256241256241254243253243252242252241253241256241256241256242254244253244253243252242253241256241256242255244000000000000000000252246255245000000000000000000000000000000000000000000000000000000000000000000255642253641253640252639254639000000256641256641253644253644253643252643254642255642255643256645253645252646253644253643254643255643256645256645253647252647252646253644253644256645256645256647253647252648252647252646253645256645256647255649255649252649252648252647253647256647255649000000253650252650252649252648253647255649000000000000254654252652252652252650254650255650256653256654255655252654252652252652254651256653256654256654255656254656252654252654255655256654000000000000254659253657253656254656255656000000000000000000000000000000253657253656255656000000000000000000000000000000000000000000000000000000000000000000254214253213000000000000000000000000000000257214254214254214253213000000255212000000257214257214))
 (.node 1 (.leaf 256218254219254216254215255215256215255216256219255220255220254219254216255216255216256219256220256220254221255220254219256218256219256220257221000000255223254222254221256220257221255222255222255227255227000000000000256224256225256226257226255231253231254230255228256228257229257229256231000000000000254233254232256232256232000000000000256234253235000000000000000000000000257233257234254236253236253235000000255233257233257234257237254237253237253236253235256234257234257237256238256238253238253237253236254236257237256238257238256239253239253238253237254237256238257238257239256241253241253239253238256238257238257239257240256241253241253241253239256239257239257240256242256242254243253241253241256241257240256242257242255244254244254243253241256241256242257242000000255245254245254244254243256242257242000000000000000000000000000000000000000000000000000000000000256641254640254639000000000000000000000000000000256641255642254640254639000000000000000000000000256645253644254643254642255642000000000000000000256645253645253644254643255643000000000000257645256647253647253645253644256645000000257645256648255649253647253647253645256645257645256648000000000000255649253647253647256647256648000000000000256653254651254650253650000000000000256650256653256654254654254651254650255650256650256653256654256654255655254654254651256653256653256654000000000000255655255655254654256654256654000000000000000000254659255656255656000000000000000000000000000000000000254659255656000000000000000000000000000000000000000000254659000000000000000000000000)
 (.leaf 254710254709000000000000000000000000000000255710000000000000000000254709254710255710255710256711000000000000000000000000254711255710256711255713000000000000000000000000000000000000257715000000000000000000000000000000000000257715000000000000000000255212000000000000000000000000000000000000257214254214255212000000000000000000000000257213257214254214254214255212000000000000257213257214255216255216255215254214257214257214258215256217255222000000255222256220257221256220257222257223256224255224000000255222255222257222257223257224256225256224255224000000255222257223257224258225257229256228255228255227257226257227257228257229256231255231255230256228257229257229257230257231256232256232255231255230257229257230257231258232257233255233000000256232000000000000000000257235257237254236256234255233257233257235000000000000256238254237254236256234257234000000000000000000257238256238254237254236257237000000000000000000256242256241256241256239257239000000000000000000000000255245255244256242257242000000000000000000000000000000255245255244000000000000000000000000000000255642256641256641000000000000000000000000000000255643255642256641000000000000000000000000000000256645255643255642000000000000000000000000256648256647256645256645000000000000000000000000000000000000000000255649000000000000000000000000256653256653255650000000000000000000000000000000256654256654256653255650256650000000000000000000255710254710000000000000000000000000000000258710255710254711254710000000000000000000258710257712)))
 (.node 2 (.node 1 (.leaf 257715000000000000000000255713256713258714000000000000000000000000000000000000258714000000000000000000000000000000000000257715000000000000000000258215256215257214257214257213258213258214258215256217255216256215257214257214258214258215258218256219256219255216256215258215258215258218259218257220256220256219255216256217258218259218258220256220257221256220256219256219259218258220259221257227257226256226256225258225000000258226258227000000000000000000256232258232259232258233259234000000256238257237257234000000000000000000000000000000257242256242257240000000000000000000000000000000000000000000257242000000000000000000000000000000256648257645000000000000000000000000000000000000000000256648257645000000000000000000000000000000000000000000256648000000000000000000000000000000000000000000000000000000000000000000000000000000256650000000000000000000000000000000000000000000256653256650000000000000000000000000000000000000256654256653256650000000000000000000000000000000000000256654256653000000000000000000000000000000000000000000256654000000000000000000000000000000000000000000000000000000000000000000259709258710255710000000000000000000000000259709259710257712255710255710000000000000259709259710257711258714000000255713256711256712259712258714000000000000257715000000255713256713258714000000000000000000000000000000257715000000000000000000000000258218256217258215257214258214259214259215259218259218256219256217258215258215259215259218260218259221256220257220256219259218260218259220259221257223257223257222256220259221259221258222258222)
 (.leaf 258225257224257223257223258222259224259225259231257231257230257229259229260228259230260231258233000000258232257231259231260231259232259233000000000000257235000000259234000000259235000000000000000000000000257235259234259235000000000000000000000000000000000000000000000000000000000000000000000000000000000000000000000000000000000000000000000000000000000000000000000000000000000000000000000000000000000000000000000000000000000000000000000000000000000000000000000000000000000000000000000000000000000000000000000000000000000000259709000000000000000000000000000000000000000000259710258710000000000000000000000000000000000000259712256712257712258710259710000000260710259713258714256713256712257712257711260710259713000000000000258714256713256712259712259713000000000000000000000000000000258714000000000000000000000000000000000000000000000000000000000000000000260212259218258218258215258214259214260214260215260218260218259218258218258215259215260215260218261218259221259221258220259218260218261218259220260219259224258224257223258222258222259221260223260224259225000000258224257223258222260223260224260225260228259229258228258227000000260227000000260229259230258230259229258228260228000000260229000000000000000000000000000000000000000000000000000000000000000000000000000000000000000000000000000000000000000000000000000000000000000000000000000000000000000000000000000000000000000000000000000000000000000000000000000000000000000000000000000000000000000000000000000000000000000000000000000000000000259709000000000000000000000000000000000000))
 (.node 1 (.leaf 259713259712257711259710000000000000261710260711260218259218259215259214260214261214262217261218261218260218259218259215260215262217261218261219259221258222259221259220259220260219261221262221260223258222258222259221260219261221262221261223260224259224258222258222259221262221261223261224000000260228000000259226259226000000260227261228260232259232260231259230000000260229000000000000261235259235000000259233261233262232261234262234000000000000000000259235261235262234000000000000000000000000000000000000000000000000000000000000000000000000000000000000000000000000000000000000000000000000000000000000000000000000000000000000000000000000000000000000000000000000000000000000000000000000000000000000000000000000000000000000000000000000000000000000000000000000000000000000000000000000000000000000000000000000000000000000000000000000000000000000000000000000000000000000000000000000259713260710261710262710000000000000000000000000000000259713260711000000000000000000260213260212000000000000000000000000000000263212262217260215260214260213261213262213263214262217261218260218260215260214261214263214262217261217262221259221260219259220260219261219262221000000261224260224260223259221262221000000262221262224000000260229000000260227260227261226261228262229000000260229000000260229000000262229000000000000000000260232260229000000260229000000000000000000262232261233260232260229000000000000000000000000261234260234261233260232000000000000000000000000000000000000000000000000000000000000000000262649000000000000000000000000000000000000262649000000)
 (.leaf 262649000000000000000000000000000000000000000000000000000000262653000000000000000000000000000000000000262653261655000000000000000000000000000000261655000000000000000000000000000000000000000000000000000000262706000000000000000000000000000000000000262706000000000000000000000000000000000000000000000000000000000000260711261710000000000000000000000000000000000000000000260711261710262710000000000000000000263212260213000000000000000000000000000000000000263214261214261213260213263212000000000000263214262217262217261214261213262213000000263214263215261217261218262217261214263214263214263215264218261219260219261219261218261217264218264218264220262221261221260219261219261218264218264220262220261225261225261224261223262221262222263222264225261226260227000000261225261225264225264226263227261228261228260227000000261226264226263227263228262229000000261228260227261226263227263228263229000000260229000000261228261228263228263229000000000000262232000000000000000000000000000000000000000000262234261234262232000000000000000000000000000000000000000000000000000000000000263649263650000000000000000000000000262649263649263650262652000000000000000000000000262653262654263654000000000000000000000000000000261655263654000000000000262706000000000000000000000000000000263703263704000000000000000000000000000000263703263704263707000000000000000000000000000000263707263708000000000000000000000000000000000000263708000000000000000000000000000000000000000000000000000000000000000000000000262710000000000000000000000000000000)))))
 (.node 8 (.node 4 (.node 2 (.node 1 (.leaf 262710000000000000000000000000000000262213263212000000000000000000000000000000264218261217262217263214263214264214263215264216264218261218261217262217263215263215264216265219264220261219261218261217264218264216265219264220262220262221261219261218264218265219264220000000262221000000262221261219264220264220000000265221262222262221000000262221262220000000265221265223264225261225262224262221262222265223265223264225264226261226261225262224263222265223264225265226263227261226261226261225264225264225265226000000263228261228261226261226264226265226000000264228262652000000000000262649263649000000000000265653263654000000000000000000263650000000265653265653262654262653000000000000262652265653265653265654000000000000261655262653262654265654263654000000000000000000000000261655263654263654000000000000263707000000262706000000263703263704264706264707263708000000000000262706263704264706264707000000000000000000000000000000000000000000000000000000000000000000000000000000000000000000000000000000000000000000000000000000000000000000000000000000000000000000000000000000000000000000000000000000263215263215263214000000000000000000265214266216265219264218264218263215263215266216266216265219000000262220264220264218265219265219265220266221265223262222262221262220000000266221000000266222265223263222262222262221265221000000266222000000264225264225263222262222265223266222000000265225265226264226264225263222265223000000265225265226264229263229263228263227000000000000265228265229000000000000000000000000000000000000000000000000)
 (.leaf 265653262652263650263649000000000000264650265651265653263654262652263650000000264650265651265654265654262654263654262652265653265651265654000000263654263654262654263654265653265654000000000000000000000000263654262654265654000000000000000000000000000000000000263654263654000000000000000000263704263703000000000000000000000000265702265705264706263704263703000000264702265702265705265706264707263707263704263703263704265705265706000000000000000000000000263708000000000000000000000000000000000000000000000000000000000000000000000000000000000000000000000000000000000000000000000000000000000000000000000000000000000000000000000000266216263215264214000000000000000000266214266215266216264216263215264214265214266214266215266216265219265219264216263215266216266215266216265218000000265223265223265221000000267222266223266224265226265226264225265223000000266224266225265225265229264229264228000000000000265226266228266229000000000000000000000000000000000000000000000000000000000000000000000000000000000000000000000000264650000000000000000000000000000000000000000000265654265653265653000000264650000000266653266654000000000000263654265654000000000000000000000000000000000000000000263654000000000000000000000000000000000000000000000000000000000000000000267703265705263704264702000000000000267703266704266705265706264706263704264702265702266704266705000000000000000000000000000000000000000000000000000000000000000000000000000000000000000000000000000000000000000000000000000000000000000000000000267213))
 (.node 1 (.leaf 265218265219266216266216266215267215267216268219000000265220265219266216266216267216268219000000267220266221265220265219265218268219000000000000267222000000266221265220000000000000000000268222266228265228000000265226265225267226267227266228266229265229265228000000265226267227266228267229000000000000000000265230000000000000000000000000000000000000000000000000000000000000000000000000266653265651264650000000000000000000000000000000266654265654265651264650000000000000000000000000000000000000000000000000000000000000000000000000000000000000000000000000000000000000000000000000000000000000000000000000000000000000000000268700000000000000000000000000000000000000268700268700267703000000000000000000000000268700268700268703266704265702000000000000000000268700268703267704266705265705265702000000267703268703267704000000000000000000000000265706000000000000000000000000000000000000000000000000000000000000000000000000000000000000000000000000000000000000000000000000000000000000000000000000000000000000000000000000000000000000000000000000000000000000000000000000000000000000000000000000000000000000000000000000268219265218266216266215267215268215268216268219000000000000265218266216267216268216268219269219000000267220000000265218268219268219269219269220267223266223267222267220000000269220268222000000000000000000266229266228266228269228268229000000000000000000000000000000000000000000000000000000000000266654266653000000000000000000000000000000000000000000266654266653000000000000000000000000000000000000000000266654000000000000000000000000)
 (.leaf 269698269700268700000000000000000000000000269698269700269700268700000000000000000000000000269700269700268702268703267703000000000000268700269700268702000000267704266704267703000000268700268702000000000000000000000000000000266705000000000000000000000000000000000000000000000000000000000000000000000000000000000000000000000000000000000000000000000000000000000000000000000000000000000000000000000000000000267213000000000000000000000000000000000000267215267214267213000000000000000000000000269214268219268219267216267215268215269215269218269219269219000000268219267216268216269218269219270220268222268222000000000000269219270220269221000000000000267223268222000000269220269221000000269223000000267225267224267223000000269223269224000000267227267227267226267225000000000000269226268226268229267229266228267227267227268226270227000000000000000000267229266228269228270227000000000000000000000000000000000000000000000000270697270697269698000000000000000000000000270697270697270698269700000000000000000000000000270697270698270699269700268700000000000000269698270698270699269701000000268703268700268700269700269701269702000000000000000000000000000000000000000000000000000000000000000000000000000000000000000000000000000000000000000000000000000000000000000000000000000000000000000000000000000000000000000000000000270213269218268216268215267215269214270214270215270218269219268219268216268215269215270215270218271219269224268224000000268222000000271221271222270224000000268229269228267227268226000000000000000000)))
 (.node 2 (.node 1 (.leaf 271695270697000000000000000000000000000000271695271695270697000000000000000000000000271695271695270698270698269698000000000000270697271695270698271698269701269700269700269698270698271698271698271700000000000000000000000000000000000000000000000000000000000000000000000000000000000000000000000000000000000000000000000000000000000000000000271212270218269218269215269214270214270214270215271218271219269219269218269215270215270215271218271219271220269221270220269219271219271219271220271221271222269223000000269221271220271221271222271223270224269224269223000000271221271222271223270223000000268226269226000000269225271225000000000000000000000000000000270227000000000000000000000000000000000000000000000000000000000000000000272694271695000000000000000000000000000000272694272695271695270697000000000000000000272694272695272696270698270697270697000000271695272695272696272697000000269702269701270699271698272700272700000000000000000000269702269701271700272700000000000000000000000000000000269702000000000000000000000000000000000000000000000000000000000000000000000000000000000000000000000000000000000000000000000000270214270213000000000000000000000000272212273214270214270214270213000000271212272212273214272216270215270215270214270213270214273214272216272217271218270218270215270214270214272216272217273217271219271219270218270215270215272217273217273219000000270226269225270224270223272224000000000000272694000000000000000000000000000000000000000000272695271695000000000000000000000000000000000000)
 (.leaf 272697270698271695271695272695000000000000273697272699271698270698271695272696000000273697272699272700271700271698271698272699272699000000000000000000000000000000271700272700000000000000000000000000000000000000000000000000000000000000000000000000000000000000000000000000000000000000000000000000000000000000000000000000000000000000000000273214270214271212000000000000000000273214273215272216270214270214271212272212273214273215272216272217270215270214270214273214273215272216272216272220271220271219271218273217273218273219273220272221271221271220271219273219273219273220273221272224270223271223271222000000273222273223274224000000271225270223271223000000273223274224273225000000000000000000000000000000000000000000000000000000272694000000000000000000000000000000000000000000272700272699272697273697000000000000000000000000000000000000000000000000000000000000000000000000000000000000000000000000000000000000000000000000000000000000000000000000000000000000000000000000000000000000000000000000000000000000274211273214272212000000000000000000000000274211274214273215273214272212000000000000274211274214275213273218273217272217272216272216274214274215274218000000000000000000272224274224274224274225275226000000000000000000000000000000000000000000000000000000000000000000000000000000000000000000000000000000000000000000000000000000000000000000000000000000273697000000000000000000000000000000000000000000000000272699273697000000000000000000000000000000000000000000272699000000000000000000000000274214273214000000000000000000000000000000275212))
 (.node 1 (.leaf 275213273215273214000000274211000000275212275213274218273218272216272216274214000000276216275218274219273219273218272216274215276216275218000000000000273222273221273220273219000000000000276221274223273223273222273221000000000000276221275223274224274224273223273222000000276221275223275224000000000000000000000000275226275224275227275228000000000000000000000000000000275228000000000000000000000000000000000000000000000000000000000000000000000000000000000000000000000000000000000000000000000000000000000000000000000000000000000000000000000000000000000000000000000000000000000000000000274211000000000000000000000000000000000000000000274214275213274214275212276212276213277214276216274215274214275213275213276213277214276217275218274218274215274214000000277214276217276218000000274219274218274215276216276217276218277218000000000000273219274219000000277218000000277220276221000000000000273219000000000000277220276222275223274223000000000000000000277220276222276223275224274224274223000000276221276222276223000000275227274227275226274225000000275224275224000000000000000000000000000000000000000000000000000000000000000000000000000000000000000000000000000000000000000000000000000000000000000000000000277211276217276216000000275213276213276214277214277217277220000000000000000000277218277219278219277221276222276221000000000000000000278219277221278221275224275224000000275224000000277224277225000000000000275227275224000000275224277225000000000000000000275228275227275224275224000000000000000000000000000000275228275227000000000000000000000000)
 (.leaf 277214276212000000000000000000000000278211279214276214276213276212000000277211278211279214279214000000276218276217277214277214277215279216278218277224000000276223276222278221278222278223278224277225275224000000276223278222278223278224000000000000000000000000275224000000000000000000000000000000000000000000000000000000000000000000000000000000000000000000000000000000000000000000000000000000000000000000000000000000000000000000000000000000000000000000000000000000000000000000000000000000000000000000000000000000000000000000000000279214277214277211000000000000000000279211280213279214276214277214277211278211279211280213279215277215277214276214277214279214280213279215280215279216277217277214276214279214279215280215279217278218000000277217277214277215280215279217279218000000277219000000277217279216279217279218279219000000000000000000277225000000000000000000000000000000000000000000000000000000000000000000000000000000000000000000000000000000000000000000000000000000000000000000000000000000000000000000000000000000000000000000000000000000000000000000000000000000000000000000000000000000000000000000000000000000000000000000000000000000000000000000000000000000000000000000000000000000000000000000000000280213279214278211000000000000000000280211280214279215279214279214278211279211280211280214280215000000000000278224278223280223000000000000000000000000000000000000000000000000000000000000000000))))
 (.node 4 (.node 2 (.node 1 (.leaf 280214280213279211000000000000000000000000281214000000000000000000000000000000000000000000000000000000000000000000000000000000000000000000000000000000280211000000000000000000000000000000000000281214280214280211000000000000000000000000282214282214280215280214280211000000000000282214283214281217280217280216280215282214283214282214282217281218280218280217280216282214282214282217282218281221280221280220280219282219282219282220282221000000280222280221280220282219282220282221000000000000000000000000000000000000000000000000000000000000000000000000000000000000000000000000000000000000000000000000000000000000000000000000000000000000000000000000000000000000000000000000000000000000000000000000000000000000000000000000000000282214281214000000000000000000000000000000000000283214282214281214000000000000000000000000000000282217281217282214282214283214000000283214283217282218281218281217282214282214283214283217283218000000000000000000000000000000000000000000000000000000000000000000000000000000000000000000000000000000000000000000000000000000000000000000000000000000000000000000000000000000000000000000000000000000000000000000000000000000000000000000000000000000000000000000000000000000000000000000000000)
 (.leaf 282214000000000000000000000000000000000000000000283214282214000000000000000000000000000000283217282217282214283214000000000000283216283217000000000000000000000000000000000000000000000000000000000000000000000000000000000000000000000000000000000000000000000000000000000000000000000000000000000000000000000000000000000000000000000000000000000000000000000000000000000000000000000000000000000000000000000000000000000000000000000000000000000000000000000000000000000000000000000000000000000000000000000000000000000000000000000000000000000000000000000000000000000000000000000000000000000000000000000000000000000000000000000000000000000000000000000000000000000000000000000000000000000000000000000000000000000000000000000000283216283214000000000000000000000000000000000000283217283217283214000000000000000000000000000000285217283218283217283214283216000000000000000000285218283219283218283217283217000000000000000000284220283220283219283218285217000000000000000000283221283221283220283219285218000000000000000000000000000000283222283221283221000000000000000000000000000000000000283222000000000000000000000000000000000000000000000000000000000000000000000000000000000000000000000000000000000000000000000000000000000000000000000000000000000000000000000000000000000000000000000000000000000000000000000000000000000000000000000000000000000000000000000000000000000000000000000000000000000000000000000000000000000000000000000000000000000000000000000000))
 (.node 1 (.leaf 283216000000000000000000000000000000000000000000283217283216000000000000000000000000000000000000285217283217283216000000000000000000000000000000283221284220285218000000000000000000000000000000000000283221284220000000000000000000000000000000000000000000283221000000000000000000286223000000000000000000000000000000000000286223000000000000000000000000000000000000286223000000000000000000000000000000000000000000000000000000000000000000000000000000000000000000000000000000000000000000000000000000000000000000000000000000000000000000000000000000000000000000000000000000000000000000000000000000000000000000000000000000000000000000000000000000000000000000000000000000000000000000000000000000000000000000000000000000000000000000000000000000000000000000000000000000000000000000000000000000000000000000000000000000000000000000000000000000000000000000000000000000000000000000000000000000000000000000000000000000287222286223000000000000000000000000000000287222287223000000000000000000000000000000287222287223287224000000000000000000000000000000000000000000000000000000000000000000000000000000000000000000000000000000000000000000000000000000000000000000000000000000000000000000000000000000000000000000000000000000000000000000000000000000000000000000000000000000000000000000000000000000000000000000000000000000000000000000000000000000000000000000000000000000000000000000000000000000000000000000000000000000000000000000000000000000000000000000000000)
 (.leaf 287222000000000000000000000000000000000000287222287223286223000000000000000000000000287222287223000000000000000000000000000000000000000000000000000000000000000000000000000000000000000000000000000000000000000000000000000000000000000000000000000000000000000000000000000000000000000000000000000000000000000000000000000000000000000000000000000000000000000000000000000000000000000000000000287222287222000000000000000000000000000000000000287223287223287222000000000000000000000000000000287223287224287223287222287222000000000000289222288225000000287224287223287223000000289222289223000000000000000000287224287223289222289223290225000000000000000000000000000000290225000000289228000000000000000000000000000000000000000000000000000000000000000000000000000000000000000000000000000000000000000000000000000000000000000000000000000000000000000000000000000000000000000000000000000000000000000000000000000000000000000000000000000000000000000000000000000000000000000000000000000000000000000000000000000000000000000000000000000000000000000000000000000000000000000000000000000000000000000000000000000000000000000000000000000000000000000000000000000000000000000000000000000000287222000000000000000000000000000000000000000000287223287222000000000000000000000000000000290225000000288225287223289222000000000000000000000000000000000000288225289223000000000000000000289228000000000000000000290225000000000000000000000000000000000000000000000000000000000000000000000000000000000000000000000000000000000000000000)))
 (.node 2 (.node 1 (.leaf 289222000000000000000000000000000000000000000000289223289222000000000000000000000000000000000000290225289223289222000000000000000000000000000000289228000000290225000000000000000000000000000000000000000000000000000000000000000000000000000000000000000000000000000000000000000000000000000000000000000000000000000000000000000000000000000000000000000000000000000000000000000000000000085188085188085187085186085186088185088186088187000000000000000000000000000000000000000000000000000000000000000000000000000000000000000000000000000000000000000000000000000000095456000000000000000000000000000000099459000000000000000000000000000000000000000000000000000000104458000000000000000000000000000000000000000000000000000000000000000000000000000000256654000000000000000000000000013292000000000000000000013290014290014291014292014215000000000000000000000000014214014214016217014218000000000000000000000000016217015219016219014223000000000000000000014221014221014221015223014283000000000000000000000000015281015282015283014288000000000000000000014286015284015285015288)
 (.leaf 15299013300013299013298014298015298015299015300000000000000000000000000015191016189016190016193000000000000000000000000000000015194015195015196000000000000000000000000000000015196016196015197015204000000000000000000015202016204016205016206015210000000000000000000015208016208017210016212014214000000000000000000015213016213016214016215014221014221014218014217015219016219016220016221015223000000000000014223015223016223000000000000016230000000000000000000015228000000000000000000015233000000000000000000015231000000000000000000015290014290014289014288015288016288016289016290000000015302015301015300000000000000015301015302000000015303015302015301000000015301015302015303000000000000015303015302000000015302015303015304000000000000000000015303000000015303015304016306000000000000000000000000000000000000015312015313000000000000000000000000000000015312015313000000016184000000000000000000016182017182017183000000016187000000000000000000000000000000000000000000016190000000015191015188015188000000017189017190015194000000000000000000016193017191017192017193016196000000000000000000015195017194017195000000016201015201015200015199000000017201000000000000016206015204015203015202016204000000000000000000016208015208015207014207016206017206017207018209016214015214015213015210016212017212017213017214000000015228016226016226000000000000000000000000000000000000000000000000000000000000016239016240000000000000000000000000000000016239016240016240000000000000000000000000000000016240016240016241016245000000000000000000000000017243000000000000))
 (.node 1 (.leaf 15249000000000000000000016248017246017247017248016253000000000000000000000000016252017252017253000000015298015297015296000000016295016296017298000000000000000000000000016306017306017307017308000000000000000000000000000000016323016324016324017183016183016182000000017181000000000000000000017195015196015195015194017193000000000000000000017201000000000000015197017199000000000000000000017207016207016206017206017205000000018206018207017212016212017210016208018209018208018209017211017213016213016212017210018209018209017211017212017243000000000000000000016241019241019242019243017252016252016249015249017248017249017249017250016298000000000000000000016296017295017297017297017300015301000000000000017298017298017299017300017313015312000000000000017311018311000000000000017322000000000000000000017320000000000000000000018173000000000000000000018171018171019172019173000000000000000000000000018176019176019177019178018189017189000000000000000000000000000000000000000000017192017191017190018192000000000000000000018218017218017217017216018216019216000000000000000000000000000000000000018221000000000000000000018230000000000000000000000000000000019229019230017233000000000000000000018233019231019232019235017237000000000000000000018236018234019235019236017290016290016288016287017287018287018288018290017292016293016291016290017290018290018291018292017294016294016293016293017292018292018293018294017295016295016294016293017293018293018294018295017295016296016295016294017294018294018295020297018306017306017305017304018304018304018305019306)
 (.leaf 18311017311018309016308019308019309019310018311000000017321017320000000018319019319000000000000019173018173018172018171018171020171020172020173019178000000018177018176019176021175021175020176000000000000000000000000019180019180019181020182019198000000000000000000000000000000000000020198019201000000000000000000018199020199020200020201018204000000000000000000019204020202021205021205019205000000000000000000018204021205021205020205019214019214017212017211019212000000000000000000019232018234018233018230019230020230020231020232019251017252017250017249019249019250019250019251018288017288017287017286018286019286019287020289019302017300017299017298019300021299021300021301019308018308018307018306019306021305019306019307019314000000000000000000019312020312020313020314020173019173019172018171020171000000000000000000020176019178019177019176021175000000000000021176019184000000000000000000020182021180021183020184020191000000000000000000020189000000000000000000000000000000000000000000020194021192021193021196020202019204019201019200020200021202021203000000020205019205018204018204021205000000000000000000020210020209018208018207020208000000000000000000019242019242019241018240019241020241020241020242019247019247019246019245019246020246020246020247019251019251019250019249019250020250020250020251019285018285018283018282019282020282020283021285019287018287018286018285019285020285020286021288021298020298020297020297021297021297021298021299021299019300020298020297021297021298021299021300021180020182019181019180021178023180022181022182)))))))
 (.node 32 (.node 16 (.node 8 (.node 4 (.node 2 (.node 1 (.leaf 22183020185019184020183021183023183000000000000021184000000020185019184020184000000000000000000021193020195020194020191000000000000000000000000022196000000000000000000021196000000000000022196021198020198000000000000022196022196022197022200021203020201020200020199021201022201022202022203000000000000000000000000000000000000000000021222000000000000000000000000000000000000021222021223000000000000000000000000000000021222021223021224000000000000000000000000000000021223021224021225000000000000000000000000000000021227021227021228020230020230000000000000000000021228021229021230020233020232020231020230020230021230021232021233020234019234020232020231020232021232021233021234020242019242019241019241020241021241021241021242020247019247019246019246020246021246021246021247020251019251019250019250020250021250021250021251020283019283019282019281020281021281021282022284020312020313020312020311020310021310021311021312021314020314020313020312020311021311021312021314021316020316020315020314021314021314022315022316021388000000000000000000020387022388022389000000021392000000000000000000000000022390000000023392021397000000000000000000021395022393022396023397000000000000000000000000021397023397000000000000000000000000000000000000000000021565021565021566000000000000000000000000000000021565021566000000022153000000000000000000000000000000000000000000000000000000000000000000022156000000000000000000022176021176000000000000022174000000000000000000023183021183021180021179022181000000000000000000000000021196021193021192000000023192022194024194)
 (.leaf 22197021197022196020196000000022195023196023197022202021202021201021198022200023200023201023202000000000000000000000000022207000000000000000000021222000000000000000000000000024220022222024223021227000000000000000000021225024226022227024228021235020235020234020233021233024232022234022235021236020236020235020234021234022234022235022236021237020237020236020235021235022235022236022237021238020238020237020236021236022236022237022238021241020241020240020238021238022238022240022241021242020242020241020241021241022241022241022242021247020247020246020246021246022246022246022247021251020251020250020250021250022250022250022251022310020310021309021308021308022307022308022309021310020310020310021309021308022308022309022310022317021317021316021315022315024314024315024316000000021388020387020387022388000000000000000000022390000000021391021388000000000000000000000000022393021395021392021391000000023391023392023393000000000000021397020396022396023394000000000000022561000000000000000000000000023559000000000000000000000000000000000000022569000000000000000000000000000000000000000000023160000000000000000000000000022181023180023179000000000000000000000000000000022182022181023180000000000000000000000000023192000000000000000000023190000000000000000000023197022197022196000000022195000000025197025198023202022202022201022200023200024200024201024202023206023205000000000000023204000000000000000000023218000000000000000000024217000000000000000000022238021238021238021237022237024236024237023238022241021241021241021240022240025240023241025242))
 (.node 1 (.leaf 22244021244021244021242022242025243023244023244022246021246021246021244022244023244023246023246022247021247021246021246022246023246023246023247022250021250021249021247022247023247023249023250022250021250021250021249022249023249023250023250022251021251021250021250022250023250023250023251022254021254021253021251022251023251023253023254022255021255021254021253022253023253023254023255022256021256021255021254022254023254023255023256022257021257021256021255022255023255023256023257022258021258021257021256022256023256023257023258022259021259021258021257022257023257023258023259022260021260021259021258022258023258023259023260022284021284022284021282023283023281023283023284022289021288021288022287022287023285023287023288022291021290021290021288022289023288023289023290023295022295021294021292022293023292023293023294023394022396022393023392023392024392024393000000023559000000000000000000000000000000000000000000000000021565023563022561000000000000000000000000024134000000000000000000000000000000000000000000000000000000000000000000024137000000000000000000000000000000000000000000000000025186024188000000024194024194022194023192000000025192025195025196024202023202023201023200024200000000000000000000000000024217024216000000000000000000000000000000000000022218024217024216000000000000000000000000000000024220024220023218000000000000000000000000000000024224024223022222000000000000000000000000000000024224024224024223000000000000000000000000000000022227024226024224000000000000000000000000024237022238022237022236024235026236024236026238)
 (.leaf 23261022261022260022259023259026258024260024261023262022262022261022260023260024260024261024262023263022263022262022261023261024261024262024263023283022283023283022281023281024281024281024282023287022287022287022285023285024284024285024286024314024313024313024312024312025312025313024314024393023393023392023391024391000000000000000000000000000000000000000000000000025565024567000000000000000000000000000000000000000000027182025183000000000000000000000000000000027182025183025184025186000000000000000000000000025184027187027187025192000000000000000000000000027191026193027193000000000000024194000000025195027195027195000000000000025198025197000000000000000000027197027197000000024200025198025197000000027197027197026200024228024228024227000000000000027227027228025228024230024230024229024228024228025228025230025230026241023241025240023238026239027239027240027241026243025243025242023241026241027241027242027243026244023244025243025242026242027242027243027244024263023263023263023262024262027262025263025264024265023265023263023263024263025263025264025265024266023266023265023263024263025264025265025266024267023267023266023265024265025265025266025267024282023283023281023281024281025281025281025282025294023293023292023290024290025290025292025293025307023305023305023304024303025303025305025306025308025308023305023305024305025305025306026308025318000000000000024316025316000000000000000000025565000000000000000000000000026563026564026565000000000000000000000000024567025568025568025569000000000000000000000000000000025568025569025571)))
 (.node 2 (.node 1 (.leaf 25571026572026573026120000000000000000000000000027118000000000000026191000000000000024188026189000000000000000000026193025191000000000000026191000000000000000000027195025195025192025191026193000000000000000000000000000000000000000000026200000000000000000000026225000000000000000000026223000000000000000000026232024232024231024230025230000000000000000000027237024236026236024234027235000000000000000000027239026239026238024236027237000000000000000000027240026240026239026238027238000000000000000000027242026242026241026240027240000000000000000000027244026244026244026243027243000000028244028244027247026247026246026244027244028244028246028247027248026248026247026246027246028246028247028248027250026250026249026248027248028248027248028250027252026251026250026250027250028250027250028252027253026254026253026251027252028252028252028253027254026254026254026253027253028252028253028254027255026255026254026254027253028253028254028255027256026256026255026254027254028254028255028256027257026257026256026255027255028255028256028257027258026258026257026256027256028256028257028259026259024260026258026257027257028257028259028260025268024268024267024266025266028265026267026268025269024269024268024267025267026267026268026269025271024271024270024269025269026269026270026271025282024282024281024281025281026281026281026282025288024288024288024286025286026286026287026288025292024292024290024290025290026290026290026291025303024303024302024300025300026300026302026303026310025310025309025308026308027308027309027310)
 (.leaf 26565025565025564000000026563027563027564027565000000000000000000000000026572027570027571026573000000000000000000000000000000026574026576027578027118000000000000000000000000000000000000000000027140000000000000000000000000000000000000000000000000000000000000000000027143028141028142000000027160000000000000000000000000000000000000028160000000000000000000000000027163028161028164000000027174000000000000000000000000000000000000000000000000000000000000000000027177028175028176028177000000027182000000000000000000000000000000000000000000026189027187027187000000000000000000000000000000000000027195027195000000000000000000000000000000027197027197000000000000000000000000000000000000027228027227026225000000000000000000000000000000025228027228027227000000000000000000000000000000027235027234026232000000000000000000000000000000026237027235027234000000000000000000000000028252027253027252026250027250029250029251029252028262025263027262027261027260028260029261028262027263025264025263027262027261029261028262029264026272025272025271025270026270028269027271027272026282025282025281025281026281027281027281027282026288025288025288025286026286027286027287027288026291025292025290025290026290027290027290027291027307025306025305025303027305027303027305027307000000000000000000000000000000000000027481027481026573000000026573026572027570028570027572029572026576000000000000000000027575028573029574028575027580000000000000000000027578028576028577028580026581000000000000000000027580028580028581028582027585000000000000000000027583028583028584028585))
 (.node 1 (.leaf 27585028585000000000000000000000000000000000000000000000000028635027636028130000000000000000000000000000000000000000000028135000000000000000000028133000000000000000000028142000000027143027140000000030141000000030143000000000000000000000000028148000000000000000000028161027163027160027159000000000000000000000000000000000000000000000000028164000000000000000000028177000000027178027177028175029175028176029177000000000000000000000000028180029178029181028182000000000000000000000000000000029188029189028190000000000000000000000000000000030194028195030196000000000000000000000000000000030196028197029199029266028265028265027263029264030263030265030266028266026267028265028265029264030265030266030266027282026282026281026281027281028281028281028282027288026288026287026286027286028286028287028288027291026291026290026290027290028290028290028291027297026297026296026295027295028295028296028297027299026299026298026297027297028297028298028299027300026300026299026298027298028298028299028300027300026300026300026299027299028299028300028300027303026303026302026300027300028300028302028302028309027309027308027307027307028307028307028308027310027310027309027308027308028307028308028309027311026311027311027310027310028309028310030311027313026313026312026311027311030311028312029314028317000000027316026314028315029315029316000000028319000000000000000000028317000000000000000000000000000000000000000000028319000000000000000000000000000000000000000000000000000000029475028476000000000000000000000000000000000000029539028540)
 (.leaf 28546028546029548028547000000000000000000000000028546029548029549000000000000000000000000028550029550029551029552028558000000000000000000028556029556029557029558028567027567027566027565027567029565030567030568028570027570027569027568029570029570029571029572028573027575026573027571027572030573029572030573028577026579027578026576028575029575029576029577028582026581026581027580028580030578030580029582028635000000000000000000000000000000029634029635028641000000000000000000000000030640030641030642000000000000000000000000028644030643000000000000029137000000000000000000000000000000000000000000000000000000028148000000029147000000000000000000029168000000000000000000000000000000000000000000000000000000000000000000029171000000000000000000029175028175000000000000000000000000000000000000029178028180028177028176028176000000000000000000028182000000000000000000029181000000000000000000029182000000000000000000028182000000000000000000029187000000000000000000029185000000000000000000029189000000000000000000029187000000000000000000000000000000000000000000029199000000000000000000000000029244000000000000000000000000000000000000030250029250029249028248030248031248031249031250030257029257029256029255030255031255031256031257029268027269029267028266030266030266030267030268029270027271028269027269029268030268030269030270028273027273027272027271029270030270029272029273028274027274027273027272028272029272029273029274028275027275027274027273028273029273029274029275028288027288027287027286028286029286029287029288))))
 (.node 4 (.node 2 (.node 1 (.leaf 28291027291027290027290028290029290029290029291029316027316028315027313029314031313031314030316029475000000000000000000000000030473030476031477000000027481027481000000029481000000000000000000000000000000029483027481000000000000000000000000000000000000000000000000000000030535031536029537028543000000000000000000029543030541030542030543029550028550028547000000029548030548030549030550029562028562028561028560029560029560030561030562029565027567028566028563028563030563030564030565029577028577028576028575029575031577031578030579029584028584028583028582029582000000000000000000000000000000028585028584029584000000000000000000029635028635000000000000000000000000000000000000029640000000029638027636030638000000000000000000030133000000000000000000000000000000000000000000000000000000000000000000030136000000000000000000000000030141030140000000000000000000000000000000000000000000030141030140000000000000000000000000000000000000030143000000000000000000000000000000000000029147030145000000000000000000000000000000000000030194030193030193000000000000000000000000000000028195030194030193000000000000000000000000000000028197030196028195000000000000000000000000031257030257030256030255031255032255032256032257031265030266030265030263031263031263031264031265030270029270028270029268030268031268031269031270029288028288028287028286029286030286030287030288029291028291028290028290029290030290030290030291029297028297028296028295029295030294030296030296030299028298028297028296029295030296030296030297031300028300028299028298030299030297031300032301)
 (.leaf 31305030304030304028302031303032303031305031306030313028312030311028310030311032311032311032312031314029315029314028312030313032312031314031315000000000000000000029316030316000000000000000000030473000000000000000000000000031471031474032475030478028476029475000000030476031476000000000000000000030480030478028476030478000000000000000000000000000000029481030480000000000000000000000000030535000000000000000000000000000000031534031535030543028543028543029543030541032543030542032543030548029548028546028546030546031544031545031546030558029558029557029556030556031556031557031558031577029575029574030573030575031573031576031577031580030578029577029576031578031578031579000000000000029582030580030578031580000000000000000000000000029640029639030638000000000000000000000000000000030642030641030640000000000000000000000000000000030643030642030641000000000000000000000000000000000000030643030642000000000000000000000000000000000000000000000000000000033115031117032119000000000000000000000000000000000000031122031122032257031257031256031255032255033255033256032257030275029275029274029273031272031273031274031275030276029276029275029274031273031274031275031276030277029277029276029275030275031275031276031277030288029288029287029286030286031286031287031288030291029291029290029290030290031290031290031291032303031302031301031300032301032301032302032303032303031303031302031301032301032302032303032304031307031306031305031303031305032305033306032305032311030311031309031308032308032309000000000000031471000000000000000000000000032469032470033473))
 (.node 1 (.leaf 31476030476030473030472031474032474032475000000000000030478031477030476031476000000000000000000031538029539029537031536031536032536032539033539030542030542030541030540031542032542033541032542031546030548030547030546031544033546033546032546031549030551030550030549032548032547032548032549032554030552029553030552031552032552032553032554031564030564030563030562030563032564032565032566031569030569030568030567031567032569032570032571031573030575030572030571032572032573032574000000032113000000000000000000000000033111033112033113031120000000000000000000032119033117033120032120032127000000000000000000032125000000000000000000031172000000000000000000032169033169032171034173032173000000000000000000031172034173034173034173000000000000000000000000000000033183032185033187000000000000000000000000000000033192032194034196000000000000000000000000000000034200032202032203000000000000000000000000000000032202032203033205032271031271031270031269032269033269033270034272031278030278030277030276031276034275032277032278031279030279030278030277031277032277032278032279031280030280030279030278031278032278032279032280031281030281030280030279031279032279032280032281031282030282030281030280031280032280032281032282031282030282030282030281031281032281032282032282031284030284030284030282031282032282032284032284031285030285030284030284031284032284032284032285031286030286030285030284031284032284032285032286031287030287030286030285031285032285032286032287031288030288030287030286031286032286032287032288031290030290030290030288031288032288032290032290)
 (.leaf 31294030294030293030291031291034293032293032294031294030294030294030293031293032293032294033296032300031300030297030296032298033298033299032299032314031314032312032311000000000000000000000000032316000000031315031314032314000000000000000000032470000000000000000000000000033468033469033472000000031476032475031474032474000000000000000000000000000000000000000000000000033525032527033529032536031536031535031534032534034534033535033536032541032539031538031537032539033537033538033539033541032543031542032539032541033539033540033541032549031549031548032548032547033549033550033551032558031560031559031558033556033556033557033558032563030561030561030561032561033561032562034561000000000000000000000000000000033580034583032582000000000000000000000000000000000000032609032610000000000000000000000000000000032609032610000000033117032119031117033115033115033116034116034119033121031122000000031120032120033120000000000000000000032126032125031122033124000000000000000000000000000000032127032126000000000000033126033127000000000000000000032127000000033126033127033128000000000000000000000000000000033127033128033129000000000000000000000000000000033128033129034131000000000000000000000000000000034144033146034148033160000000000000000000000000000000034159034162033169032169000000000000000000000000000000034171000000000000000000000000033176000000000000000000033183000000000000000000000000034181034184034185000000000000000000000000033187000000000000000000033192000000000000000000000000035190034191034192000000000000000000000000033197034197034198000000)))
 (.node 2 (.node 1 (.leaf 33199000000000000000000000000000000000000000000000000000000000000000000033205000000000000000000033249032249032248000000000000000000000000000000033251032251032250032249033249000000034250034251033253032253032252032251033251034251034252034253033270032270032269032268033268035269035270035271033298032298033297031294033296035295035295034298000000033306032305032304033304034304033305000000033469032469000000000000000000034467034470034471000000032474033473032470033472034472000000000000033522000000000000000000000000000000034521034522033525000000000000000000033525034525034526034527034530000000000000000000033529035527035529034529033547033546033546032543033545034545034546033547033558032558032557033556033556034558034559034560034561032563031562032561033561034561034562034563033563032565032564032563034561034563034564035565032568032568032567032566033566034564034567034568000000032573032572032571033571000000000000033572033580000000000000000000000000034580034581034582033596000000000000000000033594034592034593034594000000000000000000000000000000034610033612033614000000000000000000000000000000033614033615034616000000000000000000000000000000033615034616034617034114033114033113033112034112035112035113035114034116033116033115033114034114035114035115034116033120032120033120033117034119035119000000000000000000000000000000000000000000034132034132000000000000000000000000000000000000000000035137034138034144000000000000000000000000000000000000035144000000000000000000000000034148034148035149000000034159033159000000000000000000000000000000035159)
 (.leaf 34162000000033163033160034162036161034162036163000000000000000000000000034165036163035166000000000000034173032171033169034171035169035172000000000000034173034173034173000000000000000000000000034181000000000000000000000000000000035180035181034186032185033183033182034184035182035183035184034189000000000000000000000000000000000000000000034192033192033191000000035190000000035191035192034197033197034196032194034195035195035196035197000000034200033199000000000000000000000000000000000000000000000000000000000000035205034207000000034275034275034274034273034273036273036275036275034277032278032277034275034275036275036276036277035293034293032290032290034291036290035292035293035294032294032293034293035293035293036294035295034300032299033299033298034298036297036298036299035301032301032300032299034300036299035301036302033305032304033304032302034303036302000000000000034467000000000000000000034465035465035466036469034472033472033469033468034470035470035471000000000000000000000000000000000000034503035504035505034522033522033521000000000000000000000000000000034527033525032524033525034525000000035524035525034538033538033537033536034536035536035539035540033542033541033540033539034541035541034542035543034546033546033545034544034542034543034543035544034547033549033548033547033547035547035548035549034552033552033551032551034550035550036551035552034557033555033554033553034555035553035556036556034569032568032568032566034567035567034568035567034582033580032579000000034580034578035579035580034586033586033585032582033584034584034585035586))
 (.node 1 (.leaf 34596000000000000033596034594035594035595035598000000000000000000000000034616035616035617000000000000000000000000000000000000000000034641034641034116034116033116034114035114036114035116035116000000033120033119034119035119000000000000000000035123000000000000000000000000000000000000000000035137000000000000000000000000037135036136036137035140000000000000000000034138036138036141035142035145033146034144000000000000000000000000036145000000000000000000000000035149037148036150000000035159034159000000000000000000000000000000000000000000000000000000000000035166000000000000000000035169034171000000000000000000000000000000000000000000000000000000034172035172000000000000000000035184034186034185034184035182036182035184037185000000000000000000000000035187036187000000000000035192034192034191035190000000036190036191036192035197034197034196034195035195036193036194035197000000000000000000000000000000035198036198035199000000000000000000000000000000035202035202000000035205000000000000000000000000035203036204036207035255034255034254034253035253000000000000000000036265035264035264033263036263037262036263037265036266035267035266035264036265037265037265037267036268035267035267035266036266037265037267037268036270035270035269035267036268037268037269037269036270035271035270035269036269037269037269037271036279035280035279034277036277037277037278037279036280035281035280035279036278037278037279037280036281035281035281035280036279037279037280037281036282035282035281035281036280037280037281037283036284035283035282035281036281037281037283037283)
 (.leaf 35287035287035285035283036284037283036286036287036289035288035287035287035287036287036288036289036290034291035289035288036289036289036290036291036295035295035294035293036294036294036295036296035308000000000000000000035306000000000000000000035466034466034465000000035464037464036465037466000000034472034471034470035470036470036471000000035498000000000000000000000000036496036497036498035500000000000000000000035498036498036501036502000000000000000000000000035504036504000000000000000000034522034521000000000000035522000000000000035525034527034526034525000000000000000000000000035536034536033535033535035534036536037537035538035540034538034537034536035536035538036539036540034543034545034542033542035543037543035544035544035544034546034545034542034543035544035544035544035549034547034546033547035547037545037548037548035553034555034552035552036551036551037553037554035558034560034559034558035556036558036559036560034562034563034562034561035561036561036562036563035566034564035565034564035564036564035565036564034572034572033572000000035572037570036573036574035577034575034574034573035575036575036576036577035577034577034576034575035577036577036578035579034588034586033586034586035586036584036587036588035590033591034591033589035588036588036589036590035595034595034594034593035593037594036596035597035601000000000000000000035599036601036602036603035611034609034608034607035609036607036608036609035611033612034610034609035611036609036612036613035646000000000000000000035644036642036645036646036114035114035113035112036112000000000000000000)))))
 (.node 8 (.node 4 (.node 2 (.node 1 (.leaf 36124035126035123000000000000000000000000000000036126035128035127035126036124000000000000000000036130034132034130034130036128037128037129037130035134035135000000034132036133037131037132037133036138034138035137000000036136037136036137037140035142000000035140034139036141038141037142036143036146034148035145035144000000037144037145037146000000000000000000000000036150037150000000000000036163034162036161035159000000000000000000000000000000036163036163034162036163000000000000000000036182035182035181035180036180000000000000000000000000000000000000035187036187037185000000000000036194035196035195035192036192037192037193037194036198000000000000000000035197038197038198038199036204035204000000000000000000037202037203037204000000000000034207035205036207037205037206037209037257036258036257035255000000000000000000037257037262036262036261036259036259038260038261038261037262036263036262036261036260038261038261037262037265036266036265036263036263038263038264037265037269036269036268036266037267038267038268038268037272036273036272036270037271038271038271038273037274036273036273036272037272038271038273038273037276036276036275036275037274038274038275038276037277036277036276036275037275038275038276038277036286036285036284036282037283038282038284037284037310000000000000000000036310000000000000000000000000000000000000000000036313037311037312037315036465035465035464000000000000000000000000000000036471035471035470036469036469037467037468037471036498035498035497000000036496037496036497037498036503034503035500034501036501037501037502037503)
 (.leaf 36510037510000000000000036517000000000000000000000000000000036516038518035522000000000000000000036520038518038519037520000000000000000000000000035522037520036522037524035531035531035530035529036529037527037530038530036531035531034531035531035531038530037532036533036560035558035557035556036558037558036559037558036567035567034568035567036565036565037566037567036569035569035568035567036567037567037568037569036584035586034585034584036582036583037583037584035587034588034588035587036587037587036588037587035597035598035595035594036596037594037597036598036614035614035611034610036612038610037613037614036617035617035616035615035613036614037614036615000000000000000000035617036617036615037618037619036642035644034641034641036640037640037641037642036647035647035646035645036645036645036646036647036652000000000000000000000000036650037653037654036657000000000000000000036655037655037656037657000000000000000000000000000000036659037660037661037136036136037135037135037134038134038135039136037142035142036141036138037140038138038141038142037144000000035142035142037142038142038143037143037146036146036145000000037144038144037146037146037150036150037148036146037146037146038149038150037171000000000000000000000000038167037169037169037173000000000000000000037171037169039171038173037185036187037185035184000000000000039185039186037195035197036194036193037193038195038196038197037206036208036207036204037204039205038205038206000000000000000000000000037209038207039209039209037258036258037257037257000000000000000000038258))
 (.node 1 (.leaf 38268037268037267037265037265039266039267039267038271037272037271037269038270039270039270039272037284036286037283037283038282039283038283039285036292036292036291036290036290037290037290037292036293036294036293036292036292037292037292037293038297036297036296036295037295037295037296038297036301036301036300036299037299038299039300038301038305000000000000036303037303000000000000000000000000000000000000000000037307000000000000000000037312036314036313037310000000000000000000039313000000000000000000000000037315038315000000000000000000037466036465037464000000000000000000000000037468036470036469037466000000000000000000000000000000000000000000036471037471000000000000000000037496036496000000000000000000038494038495038496037498036498036497036496037496038496038497038498037503036503036502036501037501038501038502038503037506000000000000000000000000000000000000000000000000000000036510000000037509000000038510037511037520035522035520036520038518038518039520039521000000000000000000000000037524038524000000000000037530036530036529036526037526000000037528039528037532037532035531036530037530039528037531037531037536036536036535036534037534038532038535038536036564036564036563036562037562037560038561037563037570037570036569035569037568038568038569038570037576036576036575036574036572037574037574037575037577036577036576036575037573037574037575039575037584036584036583036582036583038584038585038586037589036589036588035587037587039587038588038589037599036599035597035597037597038595038598038599037601036601036600036599037599038599038600038601)
 (.leaf 38610036612036609036608037610038610038611038612036614035613036614036613037613038613038614037614000000000000000000000000037618038618038619000000000000000000000000000000037627037625038626038627037630000000000000000000000000038630038631038632000000000000000000000000000000037634037634037635000000000000000000000000000000037634037635037635037642036642036641036640037640038640038641038644037655036655036652000000037653038653038654038655000000000000000000000000037660038660038661038662000000000000000000000000000000038048038048039050000000000000000000000000000000038053038053039055038138037140036137037136039136039136039137039138038144037144036144037144037143038143039145040145038151000000037150037149038149038149039150039151000000000000000000000000000000038152038153000000037169037168000000000000000000000000039167038168000000000000000000037173038173039173039174039175037190000000000000000000038189039187039190040190038191037191037190000000037190040190039192039193038196037194037193037192038194039194000000000000038203037203037202037201000000000000000000000000038207037209037206037205038205040205039206039207038211000000000000000000039209039209039212039213000000000000000000000000038214039214038215039216039263038263037262038261038261039261040262039263039270038271038270038268039269040269040269040271000000037303036301036301038301039301039302000000000000037308037307038306000000000000000000000000000000000000000000037315038315000000000000000000038498037498036497037496038496039496039497039498038503037503037502037501038501039499039502039503)))
 (.node 2 (.node 1 (.leaf 38505039505000000000000039512000000000000037510038510039508039511039512037516000000000000000000038513038513038515039517037536037537037536037535038535039533039536039537037542037541038540037539038539038540038541038542038545037543037542037541037542038542038543038543038549037547037546037545038547038545038548038548037560037559037558036559038557038558038559039561038577036579037578037577039575039575039576039579037582037582037581036579038580039580039581040582038585037583036583037583038583039583039584039585038589037589037588037587039587039587039588039589038595037597037594037593037594039595039596039597038600037600037599036598038598039598039599039600038606036608036607037606038604040605038605040608038611036610037610036608038609040608038609040610038615036615037614036614037614039613038614039615000000000000037619037618038618039616038619038619000000000000000000000000038621039621038622039623038624037624037623000000000000039624039625038626038641037641037640037639038639039641039642039643038673000000000000000000000000038671038671039673000000000000000000000000000000038678038678000000038045038046000000000000039044040042040045039045038048000000038047038046038045039045039046040048000000000000000000000000039055039055040056039057000000000000000000000000000000039133039133040135039139038141038138038137039137039138040140040141038143037143038143038142039142040142040143040144040145037146038144038143039145040145041146041146039146037146037146038144040145041146041146039146038152000000038151038150039150040150040151040152)
 (.leaf 39167038167000000000000000000000000000000000000039173038173039171037169039171000000040172040173000000039186039185000000000000000000000000000000000000039186039186039185000000000000000000000000039187038189039186039186000000000000000000000000039192039191037190038190039190000000000000000000000000039201039201038200039200000000000000000000039214038214038211038210039212040210041212041212000000000000000000038215038215039215040216039217000000000000000000000000039219040219040220000000040266039267039266038264040265041265041265041267040269039270039269039267040268041268041268041270040287039287039285038283040285041285041286041286040288039288039287039287040287041286041287041289040289037290039288039287040287041287041289041289039299038299038298038297039297040297041298039299000000000000000000000000000000039304039305039305000000038315039313000000000000000000000000000000039410000000000000000000039406040406039408040410039415000000000000000000039413040413040414039414039499038501038498038497039497040497040498040499039504037504038503038502039502040502039503040504039508038510000000000000000000000000040507040510039519038517037516037516039517040517040518039518000000000000000000038524038524039524039525039525039528039528037528000000000000040526040527040528039533038535038532038531038532040531039532040535038555038556038555038554039554040552040553039556039556037556037556038556038555039556040557040558039567038565037564038565039565040563039566040565039576038576039575037575039574040574041577040578039581037580038580038577039579040579040580040581))
 (.node 1 (.leaf 39585038585038584038583039583040583040584040585040591039590038589038588039588040588040589040590039597038595038594037594039595040595040596040597038603038604038603038602039602040602040603040604039616038618038615038614038614039614040615040616038619000000038619038618039616040616039618040620039623000000000000038621039621040621039622040623039627038627038626037625038626039627040628040629039643038641038640038639039641041640041641040641039656038658038657038656039654040654040655040656039661038661038660038659039659040657040658039661039663038663038662038661039661039661039661040663038664000000038664038663039663040663040664041664039666000000000000000000039666041665041666041667039675038673037673038673039673040673040674040675038676000000000000038673039675040675040676040677040042039044039041039040039040041040041043040044040050039050038048038048040048042048041049041050040052038053038053038051040050041052041053041054039068000000000000000000039065041064040066040067000000000000000000000000000000040070040071040071040071000000000000000000000000040071040071040073040075000000000000000000040071040073040074040074000000000000000000000000039073040074040074040075040104000000000000000000040102040102041103041106000000000000000000000000000000040118040118000000040130000000000000000000040128000000000000000000041137000000000000000000040135041133041134041135040142039142039139039138040140041140041141042142040152038152039151039150040150041148041149041150000000000000000000000000000000041163040165000000040174039174039173039172040172000000000000041172)
 (.leaf 40206039206040205039204000000000000000000000000040210039212039209039208041208041208042209041210040218000000000000039216040216041214042217042217040220039220039219000000040218042217041217041220040252000000000000000000000000000000000000000000000000000000000000000000040255000000000000000000041265040266040265039263041264041263042264042266041268040269040268040266041267041266041267041268041283040283040282040280041281041280042281042283041291040290040289040288041289041289041290041291041291040290040290040289041289041290041291041292041292040291040290040290041291041291041292042292041294040293040293040291041292042292042293042294040297039297040295040293041294042294041294041295039299039299039298039297040297041295041298041299039304000000000000000000040303042302042303000000040310000000000000000000040308000000000000000000040403000000000000000000000000040402040402041403040412039410000000039410040410041410041411040411040419000000000000000000040417042415041418041419000000000000000000000000000000040422040423040424000000000000000000000000000000040423040424041425000000000000000000000000000000040424041425040426000000000000000000000000000000041483040485041487040495039495039494000000000000000000000000000000040499039499039498039497040497042498041498041499040504039504039503039502040502041502041503041504000000000000039505039504040504041504000000000000040507000000000000000000000000000000000000000000041511039512039511039508040510000000000000000000040518039518039517038515040516041514041515041516040519039521039520039519039518042518040518041519))))
 (.node 4 (.node 2 (.node 1 (.leaf 39522039523039522039521040519041519041520040521040537038538038538039537040535040535041536041537040541038542038541038540040539041539041540041541040546038545038543038543040544041542041543041546039556038555038555039554040552040554040554042556040559038558039556038555040557042556041558041559039562038562039562039561040561041561041562040562040563039565039562038562039562040562042564041565040567038568038566039567040565041567040566041567040571039571038570039569039569041569041570041571040574039574039573038572039572041574041575041576041592040592040591039589040589041589040591041593040592038594040592040591040590040591041593040594040607038605040605038604041604041605041606040607040616039616039615038614039614041614040616040616039622038622039621038619040620041620041621040622040630038629039627038627040628041628041629040629040631039633038632039629039630040629041630041631039636039636039635039634040634042633041635042636040641039643039642039641041640041641042642041641040647039647039646038644040645042645041646042646040649038648039648039647040647042646041646041647040658038660039659039656040656041656041659041660041664038664039664039663040663041663041664041665040674038673039673038671040672041672041673040674000000000000000000000000000000000000041682040683000000000000000000000000000000040683040685040685040701000000000000000000000000000000000000041701041036040034000000000000000000041034041034041036040036039036040035040034041036041036041036041038040039040038040037039036040036041038041038042040041040039040039040040038040039042040042041042042)
 (.leaf 41045040045040042039042041043042043042044042045041047039046039045040045041045042045042046042047040058040060039058039057040056041057041058041059040062039061039061040060040058041059041060041061040062039063039061039061040060041060041061041062040070000000039068039068040067041068041068043069041076000000000000000000040075041076042077042078041100000000000000000000041098042098043100042100041109000000000000000000000000041107042108042109041115000000000000000000041113041114041114042115000000000000000000000000000000041120041121041122000000000000000000000000000000041121041122041123000000000000000000000000000000041122041123000000041135041137039135040135041133000000000000000000041139039138041137041137041135000000000000000000041145040145040144040143041143000000000000000000041150040152040151040150041148000000000000000000041163000000000000000000000000000000000000000000041175000000000000000000041173042173042174042175041190000000000000000000000000000000000000042190041195000000000000000000041193042193042194042195041214040216039215041212041212042212042213043215041217040219040218039217042217042217043217042217000000000000000000040220041220042218042221000000042264041265041264040262041262042262041263042264041287041286041286041285041285043283042286041287041295040297041294041294042294042295043295043296042302039301041300039299042299043299043300043301040400000000000000000000041400041398042399043402041403040403000000000000040402042403042404043405040407040406039406039406041406041406041406043408041411039410040410039408041409043408042410042411))
 (.node 1 (.leaf 42413039414040414040413041413042413042414042415000000000000000000000000041425042425041426041426000000000000000000000000000000041429041429042431041483000000000000000000040481041481042482042483041489000000000000000000041487042485042488041489041499040499040498040497042498000000042498042499041504040504039503040502041502042500042501042502000000041512041511039511000000000000000000000000000000041513041512041511000000000000000000000000042514041515041513041512000000000000000000000000041516040518040517040516041514000000042515041516041520040522040519039518040518042518042519042520041527039525039525039525041525042523042526041526041534039535040535039532041532042532042533042534041543040545040544040541041541042541042542042543040546040548040547040546041546042544042545042548040552039552040552039551041551042551042552042553041560039560040559040558041558043557042559042560041567040565039566040563041565042565042566042567041571040571040570039569041569042569042570042573041576040574040573039572041574043574042575042576042583040584040583040582041582043581042583043583041588040588041587039585041586042586042587041588041589040589040588039587040588043589043590042591041601040601039599039598041599042599042600042601042602040603040602040601041601042601043602042603041611040611040610039611041609042609042610042611041614039614040613040612040613042612042613042614041621040621040620039618041619042619042620042621040624039625040624040623041623042623041624042625041628040628039627040624041626042626042627042628041631040631040630039630040629042631043631042631)
 (.leaf 42636039636039636039633041635042633042634042637041640041640041638039636042637043638042637042640042645040645041643040641041641042643042644042645041647040649040648040647042646042647042648042649042653040653040652040651041651043651042652042653041656040656040655040654041654042654041655042656041661039661040658040657041659042659042660042661041677040677040676040675041675041675042676042677041680000000000000000000040679042680042681042682041687000000000000000000040685042687043687043687041692000000000000000000041690042688042689042690000000000000000000000000041692042690042691041693000000000000000000000000041696041694042695042696041704000000000000000000041702042702042703042704041707000000000000000000041707042705042706042707000000000000000000000000041715041713042714042715000000000000000000000000000000041718041718000000000000000000000000000000000000042001043002043003042031000000000000000000000000043029044030044032042042041040040039040039042040044039043039043040042049041051041050041049041049043047042049042049042055041055041054041053041052042052042053042055041056040056041056041055042055042055044055043057042063041063040062040062041062042062044063044064042065040066041064041063042063044064044066044066042070040071040071040070043069043068044071043072041076040075040074040074042074044073043075044075041079041079041076040076042077044075043078043079041083000000000000000000042081044080043080043081000000000000000000000000041083043082042084044086000000000000000000000000000000042087042087043089041095041095000000000000042093043091043094042094)))
 (.node 2 (.node 1 (.leaf 41097040098041097041096041095042096043097042098042100041100041099041098042098043100043101043102041107000000041106040106042107043105043106043107042118000000040118040118042118043116043117043118041121000000000000000000042118043118042120043122000000000000000000000000000000044125042126042127000000000000000000000000000000042126042127043129042175041175041174041173042173043175042174043175000000000000000000000000042178042178043179000000042181000000000000000000000000043179043180043183042190041190041189000000000000043188043191043192042195041195041194041193042193043193043194043195042213041213041212041211042211000000000000043213042218041220041217042217043217044216043217044219000000000000000000041221042221044219042222042223000000000000000000000000000000042222042223043224000000000000000000000000000000042223043224000000043282042281041280042280043280044280044281044282041289041290041289041288042288042288043289043290042296041298041295041294043295000000000000000000000000042303042302042302043301000000000000000000000000000000042303042302043302000000000000000000042395000000000000000000000000043393043394043397042399040400041400041397041397043399043400043401043405041403040402040402042403043403043404044405041411040411041411041410042410044409043411043412042419041419041418042415041417042417043418043419000000000000000000000000042433042433043434042435042483041483041482040481041481043483042482043483042485041487040485041483042483043483043484043485041489000000041489041488042488043488043489042489000000042498042497000000000000000000000000043497)
 (.leaf 42505042505043506000000042515041515041514042514000000000000000000043515042526041526041525042522042522043522042524043526041528040528041527041526042526043526042527043526042529040529040529040528041529043527043528043529042535040535041534041533042533043533043534043535042545041547041546041543042543043543044544043545043548040548041547040546042548043546043547043548042553040552040551041551042551044551043550044552043557041558042556042556043555043556043557044558043561041561041560041559042559043557043560043561042564042564040562041562042562043562044563043564042575041575041574041571042573043573043574043575042577041577041576041575042575043575043576043577042581042580042579042579042579043579043580043581041588041588041587041586042586043586043587043588042593041593040591041589042591043591044592044592042601041601040599041599042599043599043600044601042615040616041614041613042613043613043614043615042620041620041619040616042618043618044619043620042634042636041635042633042632042633042633043634042642042642041641041640042640043638043641044642042656041656041655041654042654043654042656043658042661041661041660041659042659043659043660043661042663041665041664041663041663043663043664043665042672040674041673041672041672042671043671043674042683040683041682000000041682043681042682043683042691041693041692040690042689043689043690044692042715000000041716041715041713042713043714043717000000000000000000000000043002044002044003044004043029000000000000000000000000000000000000000000043044042046042045042044043042043042044043044044))
 (.node 1 (.leaf 43047041049042048042047042047044045044046044047042052041052041052042049042049043051045052045052042057041058041057041056043057045056045058045058042062041061041060041059043060045058045059044060044073042074043072042070043072045071044071044072043080041079041079042078043078045077045078044080043082041083041083042082043080044080044081044082042096041095041095042094043094044092044093044096043099041098041097041097043097045096044098044099043101043100042098041098043099044099044100043100043118042118043117042118043116044116044117045118043124041123041122041121043122044122043123043124000000000000000000000000043129044129000000000000000000000000000000000000000000000000043170043171043171000000000000000000000000043170043171044173000000000000000000042181043183044183000000000000043188000000000000000000000000000000044187044190044216042217043215042213043213000000044214044215000000000000000000000000043224044222044223044226043257000000000000000000000000000000000000000000043264042264041263042262042262044262044263044264043274042274042273042272043272044272044273044274044280043280043279043277044278045278045279045280044283043283043282043281044281045281045283045283043284042286043283043283044283045283045284044284043291041291041289042289043289044289044290044291000000042295042294042293043293045292000000000000000000043301043300043299000000000000000000000000000000043302043301043300000000000000000000000000000000000000000000000000000000044390043392044394043394000000000000000000000000044394044395044396043399041397041397042395043397045397044398044399)
 (.leaf 43404042404042403043402044402045402044403044404044409042410043408043408044407045407044407045409042413042413041411042411043411045409044412045413043414042416042415042414044413045413045415043414043420042420042419042418043418045416044417043419042426041426041426042425043425045424045424044425043426042426041426041426044426045424044425044426042430042431041429041429043429045428044428043430043436000000000000000000043434044434044435044436000000000000000000000000043436044436044437044438043448000000000000000000000000000000000000044450000000000000000000000000000000043464044465044466043470000000000000000000000000043469045469044470043474000000000000000000043470044470043472044474000000000000000000000000043478045476044477043479042482042482041481000000043482044480044481044482043485042485043484042483043483045484043485045486042489041489041489042488043488044488045487045489043490042490042489041489042489045489044489044490043496000000000000000000043494044494044495045496043499042499042498000000043497045497045498044499042503042502042501042500043502045502045502045504000000000000000000000000043506000000000000000000043509000000000000000000000000000000000000044509044514000000000000000000043512043512044513044514043515042515000000000000000000000000000000000000043522042522042521042520043520043521044521044524043529042529041529041529043527043527044528044529043543042543042542042541043541044541045542044543043550042552042551043548043548043548045550045552043562042562043561042560043560045559045561044562043566042566042565042564043564044564044565043565))))))
 (.node 16 (.node 8 (.node 4 (.node 2 (.node 1 (.leaf 43575042575043574042573043573044573044574044575043600042600042599041596043598044598044599044600043610042610042609042608043608044608044609044610043615042615042614042613043613044613044614044615043620042620042619042618043618044618044619044620042622042622042621042620043620044620044621044622042629042628041628042628043628044628044629043629043638043638042637042634043634044634043636044638044642042643042642042641043641044641044642044643042646042646042645042644043644044644044645043646043654042654041654042654043652043653043653044654043659042659042656041655042656043657044658044659043669042671042668041668042668044669044670044671043671042671041672042671043669044671044672044673043690042690042689042688044689043688044689044690043693042695041693042691044692044691044692044693043696042696042695041694043696044694043696043696042700000000000000000000043699044699043700043700043705042705042704042703043703043704044706045707042713041713042712042711043711044711045712043713043714042714041713042712043712045712043713044716043719041718041718042715043717044717044718044719044003043003043002042001044001045001045002044002000000044030043029043028000000000000000000000000044032044032044032044030000000000000000000000000044048042049043047042047044046046047046047046049045055044055042055042053044054046052045053045056044060042062042059043060045058045058046059045060045063044064044063042062044063045063045064045065044066044066044064044063045062045064045065045066045066043068044066044066044066045066046066046068044088042087042087044086044086045084045085045086)
 (.leaf 43089042088043089042087044088045086045089045090044093042094043094043091044091044092045092045093044098042098043097042096044096045094045095045096044100043100043099042098044098045096045097045098044104043104043103043102044102046103044103044104044117043117043116043115044115046117046117046118043124043124043123043122044122046120045121046122000000000000000000000000000000045128045129044130000000000000000000000000000000044130044132044133000000000000000000000000000000044132044133045135044144000000000000000000000000000000000000000000044146000000000000000000044144000000045145046147043149000000000000000000044146046147044148044149044151000000000000000000043148044148044149044150043151000000000000000000043149044149044150044151000000000000000000000000000000044153044154044155000000000000000000000000000000045159044161044162000000000000000000000000000000044161044162044163044175043175043174043171044173045171045172045173044177043175042174043175044175045173046174044176044183043183043180043179043181045179044181045183000000000000000000043183044183045183045184045185044187000000000000000000000000000000045186045189045191043192043191043188044190046190046190045190000000000000000000043195044195045195045196045197044205000000000000000000000000000000000000000000000000000000000000000000044209000000000000000000044219044219044219043217045218046218045218046220044223000000043224042223044221046221045222045225000000000000000000000000044226046225045225044227000000000000000000000000000000045225044227044229000000000000000000000000000000044229045230000000))
 (.node 1 (.leaf 44274043274043273043272044272045272045273046275045279044279044278044276045277046278046278046279044285044285043284044284045284046284046285046285044290043290043289042288044288046287046288046289044390000000000000000000000000000000045389045390044395043393000000000000043392044393045394045395044400043400043399043398044398045398045399046400045413044413042413043412044412046411046412045414044417043419043418042417045416045415045416045417044424042423042422042422044422044422045423045424044428043430043429043426044426045428046428045430044430043430042430043430044428045430045431046431044436043436042435043434044434045434045435045436000000000000000000000000044440045440045441045442000000000000000000043448044450000000000000000000044460000000000000000000000000044458045461046462044467000000000000000000043467044466044466046467044470043470043469000000043469045468046471046471043474043474042473043474044474046473045473045474044477000000043478044477045476045475045476045477044482042482043483043482044480045480046482046482045489042489043489043488044488045486045487045488044490043490042491042489045489045488045489046491044495043495043494042491044493046493045494045495044499043499043498043497045497045497046498045499000000000000043506042505044505000000000000000000044509043509000000000000000000000000045510045511000000000000044514043513044513045513045514045515044521042521043520043519043519045519045520045521044526043526042524043522044524045522045523045524044529043529043528043527043527044527045528046529044541043541043540043539044539045539045540045541)
 (.leaf 44545043545044544043543044543045543045544045545045553044553044552043550045552045550045551045552044558044558043557043556044556045556046556045558044564043564044563043562044562045562044563045564044573043573042570042570044571045569045572045573044592044592043591043590044590045590045591045592044615043615043614043613044613045613045614045615044620043620044619043618044618045618045619045620044626043626042625043624044624045624044625045626044640043638044639043638044638045636045637044640043651042652043651043650043650044650044651044651044654043654043653043652043653044653044653045654045660043660043659043658044658045658045659045660045662043663043662043661044661045661045662045663044664043666043665043664043664045664045665045666044669042668042667043667044667045667044668044669043682042682043681042681044682045680045683045684044685043685043684043683044683044684045684045685043700042700043700043699044699045697045698045699043703043702042701042701043701045700044702045704045707044707043705043704044706045706045707046707044711043711043710043709044709045709046710045711044718043718043717043714044716046716046716045718044002044003044002044001045001046001046002045002044006044006043004044004045002047002045004045006045008000000044007044006044006045006045007046008000000000000000000000000000000000000045012000000046038044037044036044035045037000000046036046037046052044054045052045052046050046050046053046054045060044060045059045058045058046058046061046062046069044071045069045069046068046067046068046069044083044083044082044081045083046083046084045084)))
 (.node 2 (.node 1 (.leaf 44090043090043089044089045089046089046090045090044108044107043107044107045107046105045108047108045113044113043113044111045111047112047113045113046119045118044117044116046117047118047118047118046120045119045118044117046118047118047118046119045121043123044122045119046120046119046120046121045123044125043124043123045121046121047123047123045128044128044127044126045126046124047125045127045129000000000000044129044129046127046128046129045140000000000000000000045138046138046139046140044154000000000000043152044152045152045153047154044157000000000000000000044155045155045156045157044158000000000000000000044156045156045157045158044159000000000000000000044157045157045158045159045165043163000000000000044162045163045164045164000000000000044167044164044165045166047167046168045177043179043178044177044176046175046176046177045179043181044180043179045177046177045179045179045185000000000000044183045183046183047184045185045186000000000000000000000000046186047187045186046190043191044190044187045189000000000000000000046193043193045192045191045190000000000000046194045197000000044196044195045195046195000000000000000000044209045207044205000000000000000000000000045215044215044214000000000000046213046214046215045222044222044221045221046221046220046221047224045225000000044226044223045225047224047226046227000000000000000000000000045230047229045230046232045273044273044272043272044271045272046274047275000000000000045292045291046291000000000000000000046396044396044395044394045394046394046395047396045403044403045402044401045401047401046402046403)
 (.leaf 45418043419044417045416045416045417045417046420000000045424044424044423045423046423046424046425045425044425045424045424000000046425000000000000046431044430043430044428045430000000046429046432045435044435044434045433045433047433046432046433000000000000000000000000000000045451000000000000045456000000000000000000000000000000046455046458045461043460000000000000045459046459045460046461044464044465043464045463045463046463046464045464045471043472044470045469046471046471046472047472045477044477045476045476045475045475046478047477045480044480044479043479046479046478047480047481046485043485045484044482046482047482046483046484046495045496044495044494045494046494046495046496045499044499045498045497045497000000000000000000000000045504045502045502046501000000000000000000000000000000044505045504000000000000000000000000045512043512044509000000045510047509046511046512045525043526044526045524045523046523046524046527045528044528043527044526044527046528047527046528045530044532044529044528045528046528047529046532045535044535043535044535045533046533047534046535046547045546044545044544045544047544046545046548044549045550043548044549045549047548046550047550045558044558044557044556045556046556046557047558045560045559045559044558045558047558047559046560045565044565043565044565044563045564046566046567045572044572044571045569045568045570045570047570045574044574044573044572045572047570046573045573045586044584043584044584045584046584046585045586045590044590043589044588045588046588047588046590045599044599044598044597045597046597046598047599))
 (.node 1 (.leaf 45605044605044604044603045603047601046604046605045615044615044614044613045613045613046614046615045620044620044619044618045618046618046619045620044625043625044624043623045623046623045624045625045637044639044638043636045635046635046636046637045641044643044642044641045641046641046642046643044651043651043651043650044650045650045651045652044652043652043651043651044651045651045652046653044653043653043652043651044651045652046653046654045654044654043653043653044653046654046655046656045659044659044658043657045657046657046658047659045674043675043674043674045672046674045673046674045680044682043681045679045678046678046679045680044684044683043682043682045683047681046684046685045685044685044684044683044684046685045684046685046688043688043688043686045688046686046687046688045689044689043688043688046688046687046688046689044695044694044693044692045694046692046693046694045700043701043700043700045698047699047700047700045706044706043704043703045704046702046705046706045709044709044708044707045707047707046708046709045712045712044711044710046710047711046711046712000000000000044719044718045718046718046719000000045002044002045002045001046001000000000000000000046010000000044008045008046008048007048008046010000000000000000000000000046010046010047011000000046042045042045041045040047040047040047041047042046050046050046050046049046048048049047049048051046063045063045060046059046061048060047060047061046078045078045077045076046076047076047077047080045090044090045090045089046089048088047090047091045099045098045097045096046098047098046099047100)
 (.leaf 46105045107044104044103046103047103047104047105045111044111045111044108046110047110047111047112047118046118046117046117047117047117047118048118046124045126045123046122047123047122047123047124047134045135044133044132046133047131047132047133046138045138044136044136046136047134047137047138000000000000000000000000000000047142046144000000046145045145000000000000000000046144000000047145046147044148046147045145046145047145047148047149045153044153044152044151045151046150046152046152045163044162044161045159045160048161048162046161045173045172045171045170045171048171046172046172046177045177045176044176046175048177046176047179047184045184045183044181046182048181047181047184045186045186000000000000046186047186048187000000046195045195046193045191000000000000000000000000046227044229044227045225046227000000000000000000000000000000000000000000046232047230047231047234000000000000000000000000000000048256046257048258045269044269044268045267045267046267046268046269045270044271044269044268045268046268046269046270045272044271044271044269045269046269046270046271046276046275045273045272046274047274047275047276047276045277046275045273047275047275047276048277047286046285046285046284047284000000000000000000047288046288046287046285047286000000000000000000047289046289046288046287047287000000000000000000047290045291046289046288047288000000000000000000046387000000000000000000000000000000047386047387046390045390045389000000047388047388047389047392047396046396045395045394046394047394047395048396046408045410046407046407047407048408047407048409))))
 (.node 4 (.node 2 (.node 1 (.leaf 47412045414046412046411047411047410046411047412046415045415046414045415047414047413046415046415046422044422046420045418046420047420047421048422046429045431045430046428000000000000000000000000046433045435045434045433047433000000000000000000047437045438045437045436046436000000000000000000046441045441045440045439046439000000000000000000000000000000045442045441046441000000000000000000045451000000000000000000000000000000046449048449000000000000000000000000045451048449046451047453045460044458045459045456046458047456048459047458046463045463046462045461046461047461048462047461046472046471046471045468046470047470048469047470046487045487045486046485047485048487048487048487047492046491045489045488046490047490047491047492000000045503046501045499000000000000000000000000046507000000000000000000000000047505046506047507046513045513045512045511046511047509046511047513046516044517045517044515045515047516046515047516046522045520045519045518046520047520047521047522045522045522045521045520046522047522046523046524047527044527044527045525046527047525047528047529046543045543046542045541047541048541047542048545046545045545045544045543046543048545048545047545047548045549046547045545046545047545047548048549046557046556045556046555046555047555048556047557046562045564044563045562045561046561047561047562045567045568045565045564046566047566047567047568046575045575045574045573046573048572047572047575046575045577045576045575046575047575048575048576046581045581044581045581046579047581046580047581045586045586045585045584046584047584047585047586)
 (.leaf 47588045589045588044586046587047587047588047589046592045592045591045590046590048589047591047592047599045599045598045597046597047597047598047599047601046602046600044600046600048599047599048602046604045604045603046602047601048602047601047604046612045612045611045610046610047610047611047612046615045615045614045613045613047613047614047617045628045629044628044626046627047625047628046628046641045641044640045637046637047637046639047641046643045641044641045641046641047641047642047643046647044649044647044646046645046645047646047647046654044653044652044651045652046652046653046654045663045663045662045661046661047661047662047663046667044669044668045667046665047665046666047667046671045671045670044670045670046670046671047673046676044677045677045674046674047674047675047678045684045684044684045684046684047682046684046686046696045696045695044695046694047696048697047698047700045699045698045697046699047699048699047699046702045704044702045700047700047700047701048702047706045707045706045705046705047705047706048706046714046716046714045712046712047714047715048714046718045718046716046716046714048714047715047718047004045006045004047002047002048002049004000000048008045009046008045007047007000000000000049007000000045012000000000000047011047011048012047012047018000000000000000000047016000000000000000000000000000000000000000000047018000000000000000000000000000000000000000000000000000000000000047026000000000000000000000000000000049028047029049030000000000000000000000000000000049030047031047032000000000000000000000000000000047031047032047033))
 (.node 1 (.leaf 47032047033047034000000000000000000000000000000047033047034047034000000046036000000000000000000047034047036047037047043045044046042047041047041047041048044048045048047046046046045045044047046049045049045049046047049046049046048046047047049048047048048048049047057046057046056046055047055048055047056047059048060046061046058046057047057047059049058048059047077046077046076046075047075047075049076048077047082047082046081046078047080048080048081047082047084046084045084046084046083048084048085048086047086045086045085046084047084048086048087048088046091046090045090046090047090048090048091047092046099046099046098047097047097047095048096047099047110046110047108045108047106049107049108049109047127046127045127047125048125048125049127048127047134046136047134045134047132049133048133047134047139046139046138046137047137048137048138048139047150046150046147045146047148048146048149047149046155045155047154045153046152048154048155048156048161045160045159045158047159048159048160048161047164045166045164045164046163048164048165047166047169045171045169045168046168048167047168048169046176046176046175046174047176049175048177048178048180045179045179046177047179048179048180000000047181046183046182045179048180000000000000000000047214046214046213000000047212048212048213048214046218046217046216046215047217048217047218047218047223046221046220046219046219047220047221048223000000047224047224046221047223048223000000000000000000047226047224047224000000000000000000000000000000045230047229046227000000000000000000000000)
 (.leaf 47231000000046232045230000000000000048230048233000000000000000000000000047234000000000000000000047254000000000000000000000000000000000000000000046268045268045267045266046266047266047267047268046269045269045268045267046267047267047268047269047276046276047275046274047274048274048275049276000000047287047286047285000000000000000000000000000000000000047290047289000000000000000000000000000000000000000000000000000000048312049314047314000000000000000000000000000000047326047328048330047389045390047388046387047387047387048390048391047394046394047393046390047392048392049393048394047395046395046394047393048393049393048394049395047420046420045417045417047418048416049417048420047427000000000000046425047425049425048426048427000000000000000000000000000000000000047442047443000000000000000000000000000000047442047443047445000000000000000000000000000000047445048446047446047454000000000000000000046452048452048453048454047456046458046455000000047454048454048455048456047458045460046459046458047456048456048459048460047461046463046462046461047461048461049461049462046464046464045464046464047464048464047465047465047467047469046466046465047465049466049468049468048469046471046470047469047467049468049468048469048487047485046484046483047483049484048486049487047492047492046491046490047490048490047491047491000000000000000000000000047500048500048501048502047509046511047509046507047507049507048508048509047515046515046514046513047513048513048514048515047517045519046516046515046515047516048516048517047522046522045521046520047520048518048521048522)))
 (.node 2 (.node 1 (.leaf 47525046527046524046523046524047524048524048525047542046542047541046542047540048540048541048542047545046545047544046543048545048543048546049547047554047553045551046550047552048552048553048554047555046555047553045551048552048553048554049555047559047559047558046557047557048557049558049559047567046567046566045564047565049563048564048565048571047570045570045570047568048570048571049572047572045573046573047570048571049572048573048574048576046575045575046575047575048575049575049576048578046579047577046575048576049576049578048579047581046581046580046579047581048581049581048583047586045586046585046584047584048584047585048586048593046593046592046591047591049591049591049592047596047596046595046594047594049594048595048596047606045606046605046604047604049604049604048606046607046606045606045606047606048606048607048608047614046614045613046612047612048612049613048614046618046619046618046615047617048615048616048617047623046623045621045620047621048621048622047622047630046628045628046628047628048628047629047629046639046638046637046636047636048636048637047638047643046643046642046641047641048641048642048643046645046645045645046645047645048645047646047646046657046657046656046655047655048653048656048657046666046666046665045666047664049665047666049668047667046667046666046665047665047666049668048669046671046670045670046670047670049670049671049671046674045673046674046671047673049671048672048675047675046675046674045673046674048675048676048677047682046684047681045680046680047680048681048682047687046687046686046685046686048685048686048687)
 (.leaf 46690046690046689046688046690049689047690047691047698046696046695046694047696049696048697049697048699047699046699046696047698049697048697048698047701046701047700047700047699048699049701048703048706047706046706046705047705049704048706049706047708046708047707047707047706048706048707049709048714046714046713046712047714048714049714048714047718000000046719046718047718048716048719000000048002047002000000000000000000000000000000000000048008046010048008048007000000000000000000049008000000048014047012000000047012048012048013049015048039047039000000000000047037049037050038049039049045047046047043047042048044049044050044050044048053047053047052047051049051050051049052049053048055047055046055047053048053049053049054049055048062047062047061047060048060050060049061049062047069046069047068047067048069049069049070049071048073046074047072046071047071048072049072049073048077047077047076047075047075049075049076049077047082047082046081047080048080049078049081049082047095047097047094046093048093049093048095049097047101047101047100046099047099049097048099048100047101047102047101047100047099048099048100048101048105047105047104047103048103049103048104049105048112047114047113047112048110049110049111049112048125048125047124047123048123048124049124050127048128048130047127046126049127050127050127049128047131046130046130048130048128049128049131048131048133047133047132047131048131049131049132049133048139047139047138047137048137049135050136049139047142047142046142046142048142050142048142049144048146047148047145000000048146049146049147049148))
 (.node 1 (.leaf 48149046150047150047149048149049149049150049151048154046152046152046150048152049152048153048153048169047169046168046168048167048168050169050170049172046172048171047169048169050170049170049171049175047176048174046172049172049172050174050174000000048187047186047185048185000000000000000000000000000000000000000000000000000000049210048211048214047214047213047212048212048212049213049214048218046218046218047218047218049216050217049218047221047220046219046218048218049218048220049222000000000000000000047223048223049223048224049225048230047230000000000000000000000000000000000000000000000000047234047231048233000000000000000000000000046257048256047254000000000000000000000000048260046261048260048259048258048259050259049260047264046263046263047261047262050261048263048263047268046268046267046266047266048266048267048268000000048279048278048277049277049278000000000000048312000000000000000000000000000000000000000000000000000000000000000000048317049315048317048318000000000000000000000000000000048317048318048319000000000000000000000000000000048318048319048319047324000000000000000000048323049321048323049325000000000000000000000000047328048329049330048331047387047387047386000000047385048386048387049389048392047392047389047388048390049390050391049392048400048400048399047398048398049398050399049400000000048406048405048404000000000000000000000000000000048407048406048405000000000000000000000000000000047407048408048407000000000000000000000000048410047410047409048409000000000000000000049410048412047412046411047410048410049410049411049412)
 (.leaf 48416047418046415046415048414049414049415049416048422048422047421047420048420049418049421049422048428000000047427047426048426049426049427049428000000000000000000000000000000000000000000048440048456047456046455047454048454050455049455048456048460047458048459047456048456048456048458048458048488048487048487047484048486049484049487050487048489048487048487048487049487049487050487049489048492047492046493047492047491049490049491049492048494047494046493047492048492049492049493049494048502000000000000047500048500048498049499049502048506046506047505047504048504048505049505049506048509047509047508047507049507049507049510050510048514047514047513046511048512049512049513049514048518047520047517047516048516049516048517049518048523046523047522047521048521050520050521049523048526047528047525047524048524049524048525049526048531047531047530047529048529049527049528048529048543048545047542048541048541050541049542049545048565047567047566047565049563049563050564049565048570047568046568047568048568049568049569050569049578047578048576048575049575049576049577049578047585047585047584047581048583050583050583049583048588047588047587047586048586049586049587050588049597047597047596047595048595049593050594049597048608046607047607047606048606049606050607050608048612047612047611047610048610049610049611049612048617046618047618047617048615048615049616049617048622046621047621046619048620049620049621049622048637047637047636046635048635048635048636049637048643047643047642047641048641049639050641049643048653047655046654046653048651049653048652049653)))))
 (.node 8 (.node 4 (.node 2 (.node 1 (.leaf 48658046658046657047656048656048656049657049658049671046670047670047667048669050668049668050669048672047674047673046671049671049670049671049672048677047675047674046674048675049673049674048677048695046693048693046691048693050693050693049695048704048702047701047700049701049702049703049704048707047707047706048706049706049707050707050708000000000000047718048717048719049719000000000000000000000000049004048002000000000000000000000000049009047011048008049007000000000000000000000000048013048014047012048012049012000000050011000000000000000000000000000000049015000000000000000000049031047032047031049030049029051030000000000000049037047036047034047034049035000000000000000000049039048039048038047037049037000000051038050039049044048044047041047041049042050042049043051042049048048048048047049046049046050046050047050048049059048059049058047059049057050057050058050059049062048062048061048060050060050060050061050062049065047067048066048065048064050063050064050065049071047069047069048069049069050067050068050069049078048080048077049076049076049076050077050078049083047082047082048081049081050079051080050083048089048090048089048088049088050086050087050088048097048096047095047095048095050094049096049097049109049108049107048105049105050105049106050107049116048116049115049115049114050116050117049118049120048120048119048118048119050118050119051122049128048128048127049127050127050126051128050128049146048146049145047142049144050144049145050146049153048155048154048153048153051152050154050155048156048158048157048156049156051156050157050158)
 (.leaf 48165048165047166048165049165050165050166051167050169047168048167048166049168051167050169050170050175048177049175048173050174050173050174050175050179048180048179048178049178051178050179051179049187000000000000000000000000000000000000050187000000000000000000000000049190051189049190050192049210000000000000000000000000000000000000000000049214048214048213048212048212051213049213050216049218048218047218047218049216049216050217050218000000000000000000000000049225050223050226000000049260048260048259048258048259000000050259050260048266047266047265047264048265051265051265049266048267047267047266047265048265051265049266049267048268047268047267047266048266049266049267049268048272048273048272047269049271049271049271050273000000047314049314048312000000000000000000000000049315048317047314049314000000000000000000051315049321048323048320000000048319051319050320051321048325047324047324000000048323050322049324050326048331000000048330047328048329049329050330049331049384000000000000000000000000050382050383050384050391048391048390047387049389051389050390051391049394048394049393048392049392050392050393051393050417049417048416048415049415051415050416050417049418048420049417048416049416050416050417050418049423048423048422048421049421049421049421049422048445047445047443047442049443050441051442050445048447047446047446048446049446050446051446050446048449048448047448047446048447050446049448049449048449048449048448047448049447049448049449049450049453048453048452048451050451050451050452050453049455048455048454048453049453050453050454050455))
 (.node 1 (.leaf 48471048473048472048469049471050471050472049473049478048478047479048478048478051476050477050480049481047483048480048479049481051481051481050483049484048486049484047483049484051482050483051485049495048497048494047493049493049493050494050495049499048497047496048497049495050495049497049497048503047503048503048502049502050502050503049504049512048512048509048508049510050508050509050512049514048514048513048512049512050512050513050514049518048518048517048516049516050518050519050520048525048525048524047524048524049524049524049525048529048531048530048529049527049528051529049529049542048542048541048540048540050540050541051543049545049547048546048543049545051543051545050547050552048552049551048550049550051550050551050552049556048556049555048554049554050554051554051556049565048565048564049563049563050563050564050565050569048570048569048568049568050566050567050568049570049572048571048570050569050568051570050572049576049575048575048574049574050574050575050576049583047585048584048583050583050583050584050585050588048588048587048586049586050586050587050588049592049591049591048590049590050590049591050592049600048602048599048598050599051600051600050600049614048614049613048612049612050612050613050614049617048617048616048615048615050615051617051618049622048622048621048620049620051620050621051620048625047625047625047623048623050622049624049625049625048627047625047625049623049624049625049625048630048631047629047629049629050627051630051631050633047634048632047633049633050631050632050633049637048637048636048635048635050637050638050639)
 (.leaf 49639048641047638048637049637050639050640050641049645048645048644048643049643050643051643050645049649047649047649047649049649050649051649050649048652048652048651048650049652050650049653049654048656048656048653048652048652049654049654050656049665047666049665047664049663049663050664050665049668049670048669049668050667050666050667050668048677048677048676048675049673050673049675050677049689047690049689048687049687051688051689051690050693048694048693047691049692050692050693049694049703048703049701048699049701050701049702050703050714048714049712049710049712050712000000000000049715048715048714049714049713000000000000000000000000000000048719048716049718000000000000000000050011048012049012049009000000000000000000000000000000049035050033049031000000000000000000000000050039049039050038049037000000000000052038052039051042049044049043049042050042051042052041051042049056049056049055049054050056052054051055051058050070048071049071049070050068051068051069051070050075049073049072048072050073051071051074051075049076049075049074049073050075051075051076051077050079049081049078049077050077050078050078051079050085048085048083049083050083051081051082051083050088048089048089049088050086052087051087051090050090049090048090048089050088051090051091052092050094048095049093048093050092052092050093051094050101048100048099049097050099051099051100050101050102048102048101048101049102051102051103051104050105049105048104049103050105051105051106051107050111049111049110049109050109050110051110051113050117049115049114049113050115051115051116050116)))
 (.node 2 (.node 1 (.leaf 50119048119048119049119050117051117051118051121050129049131049128050127051128052127052128051129051133049133049132049131050133051131051132051133050138049140049139050136050136051138051139051140050148049148049147049146050146051146051147050148051156049156049153048153050154051154051155051156050171050170050169048168050169051169051170051171050175050175050174050174050173052174052175052176051182000000050180050179051179052180000000000000050187049187000000000000000000000000000000051187000000000000000000000000050192052191051193052193050203000000000000000000000000000000000000000000051208000000000000000000050206000000000000000000049216049216048217049214050216052215052216050217050221049223049222048220051220050219052222052222000000000000000000000000050226051224051225051228051261050261049260050259050259051259051260051261050263048263048263050261051261051261051262051263050275048275048274048272050273051273051274051275050318048319048318048317050316052317052318051318050320048320048319048319050318051318052319051320050322048323049321048320050320051320051321052323049327048327048325048325050326052325052326000000000000048331048331049330050330000000000000000000050386048387048386049384050384051384050385051388050392049392050391049390050390051390052391051392050418049418050417049416050416051416051417051418050433000000000000000000000000000000000000000000000000000000000000000000050436000000000000051438000000000000000000000000000000050438050439050440050441049443048440000000000000050440050440051441051446049447049446048445050445051443051444051445)
 (.leaf 50458048458048458048456050456050456052458051458050463049463049462049461050461051459051460052463050472049472049471049468050470051468051471051472050477049477048478048475050475051475051476051477051481048480049481049478050480051478051481051482050492049492049491049490049490050491051491051492050503049503049502049499049499052500050501051503050520049518048517049516050518000000000000000000050535049535048534049533050533051533051534051535050538048539049537049536049537051536051537052539050551049551049550050547050549051547051548051549050553050552050552049551050551051549051550051551050574049574048573049570050572052571051573052572051580049582050580049578051578052578051579052582051593050593049593049592050592051592051593052592051596050594049593050593051593052592051593051596051598049599050598049597050597052596052598052599050600049600050599050599051600052599051601051602050603049605049604050602051602052602051602052604050608050608050607049606050606051606051607051608050615048615049614050613050613051613051614052615050622048623048623049622051620051620052622052623050627049629048627049625049625052625051628052627050637048635050635050633050633051633051634051635050639049637048636048635050637051635051636050637049646049645048645049645050645051645050646051645050650049652049649048649051649051648051649051650050658049658049657048656050656050656051657051658050660049660049659049658050658051658051659050659049678048678049678048677050677051675050678050678050684048685049683049682051683051682051683051684051688049687048687049687050687051685051688051689))
 (.node 1 (.leaf 49694050693050693049692050692051690052692052693050698050697049697049696050696052695052696050698000000051030051029000000000000000000000000000000000000000000051030051029000000000000000000000000051043050043051042049043052041052041053043053043052046050046050045050044051046052044052045052046050051050049050048050047051049052047052050051051051053049055051052050051051051053052053052052053051055050057050056049055051053052053052056052057050065050064050063050062050062052062051064051066051071050073050070050069051069051070052070052071051076051076050075049074051074052074052075052076051084049085050085049084051082051082053083052084051087050087050086050085050085052085052086053087052092050090049089050088051090052088052089052090051094050094049093050092052092052092052093052094051096049097049096050094051094052094052095052096050101050101050100050099051099053098053098051101051103049102049102050101050101051101051101051103051115050115049112050111051113052111052112052113050116050117050116050115051115052113052114051116051121050119050118050117051117051117051118051119052122050123051122050119051121051119052122052123050124049122050123051122052122052122052123053123051125050125050124050123051125053124051125053126051138050136050135049135051136052134052137052138050148050148049147050146051146053144052147052148050150049150050150050149051149052149052150052151051157050159050158050157050157053157052158052159051167051167050166050165051165052165052166052167052180051179050179051178052176000000000000000000000000051184051183051182000000000000000000000000)
 (.leaf 51184051183000000000000000000000000000000000000000000051184000000000000000000000000051187050187000000000000000000000000000000000000051189049190051189050187051187000000052188052191051194000000000000000000052193000000000000000000000000051213051212000000000000000000000000000000000000049213051213051212000000000000000000000000050219051220050218050217050218052217051219052221051225000000050226050223051223000000052224052225000000000000000000000000051228053227052229000000051270049271049271049268051268051268052269053271051275050275050274050273051273053273052274053274051384050384050383050382051382052382052383052386051390050390051389050386051388052388053389053389052391051391050390051389052389053389053389053391052397051397050396051395052394052393053396053397000000000000050402050401051401000000000000000000000000000000000000000000000000000000052406051407050410050410000000000000051408051408052409051410051411050411050410000000051409052409051410052413051419049421050418050417051417053418053419053420051424050424049422049421051422052422053422052424051429050429050428050427051427052427052428051428000000000000000000000000000000052430051432000000050439000000000000000000051438052436052437052438051449049450049449049448050447051448051448052449050456050456050455050454051456052454052455051457051460050462050461050458051458052458052461053461051467050467049465049464051465052463053465052467051468050470050467049467050466051467052467052468052473049473050472050471051471052471053471052473051485050487051485050483051483053485052484052487))))
 (.node 4 (.node 2 (.node 1 (.leaf 51492050492050491049490050491051491052491052492051495050495050494049493051495052493052494052495051498049499049497049497052496052496052497052498051504049504050503050502050501052500051502052504051507049507049507049506050507051506052508052509051512050512050509050508051510052510051511052512000000050519050518049516050516051516051517052519051525049525049524049524051523051523052524052525051530051530049529051529051528052528052529052530051535050535049533050533051533052533052534051535051537050537049537050535051535052535051536052537051539049539050538050537051537052537053538052539051541050541050540049539051539052539052540052541051551050553050552050551051549051550051550052551052571050572051570050568051570052568052569052570051574050576050575050574052572052572052573052574052578051578050578050577051577052577053578053579052582051580051579051578052578052578053580053582051585050585050584050583051583052583053584053584051587050587050586050585051585053584052584052585051589050589050588050587051587052585053588053588051593050593050592049591051591053591053591052593052598051597050597051596051596052596052597052598051608050608051607050606051606052606052607052608052619051620051618051617052617052616052617053618051624049625049624050622052623052622053623052624051630051630050627049627051628053626053628053629052631051631051631051630051630053629053629052632050637050639050638050637051635052635052636051637051643050643050642050641051641052641052642053643051651049653050650050649051649052651051650052651051653049654049654049653051651052651053654053655)
 (.leaf 50668050667050666050665051667052667051668051668051675050677049675050673050674051674052674052675050678049678050678050677051675052675051677052679051685050687050684049683051683051684052684052687052696050697050696049694051695052695053695052695050702049702050701050700051700052700052701051702051704049705049704049704051702052702051704053705050708050709050708050707051707052707052708052709050713000000050712050711051711052711051712051712000000000000000000000000051715052715051716052717052039052039052038000000000000054038053038054039051051050051050051051050052050053048053049054050052057051055052054051053052053053053053054052055051069051068051067051066051067054066052068054069052076051076051075051074052074053072053073053074051080051079050078050078052079053079053080052080052081051081051080051079051080052080053080053081052096051096052095051094052094053094053095053096052108051108051107051106052106053106053107052108051111051110050110051110051110052110053111052111051116050116051116051115052113053113053114052115052116051116050116051116052114053114052115052118053126052126051125050125051125053126054127053128052130051130051129052128052128053128053129054131052134051136051133051132052132053132054133054135052139051139051138051137052137053135054136054138053142051143051142051141052141054140054140054141051155051156051155051154052154053152053155052155000000051193052191051189052191000000000000000000000000052216052215000000000000000000000000000000000000050217052216052215000000000000000000000000052217050218050217052216000000000000000000054218))
 (.node 1 (.leaf 52222052222050219052221054220054221000000052225051225051224051223000000000000000000000000000000000000000000051229052229054229053230000000052258000000000000000000000000000000000000000000051267051266051265051264051264053264053265052266051268051267051266051265051265053265052266052267052269051269051268051267051268052267052269052269052276051276051275051274052274054273053275000000000000000000051277051276052276000000000000000000000000052318052317051315000000000000000000000000052320051320052319051318000000000000000000000000000000052324052323051321053323000000000000000000000000052325052324052323000000000000000000000000000000052326052325052324000000000000000000000000000000000000052326052325000000000000000000000000052383051383051382000000000000053381053382053385052388051388050385051384052386053386053387053388053389051390052389051388052388053388053389053390052409051409051408000000051407053407053408053411053414051413050413051411052413054412054413054415052424051424051423051422052422053420053421053424052426052426050424051424052424053424054424053426052428051428051427052426052426053426053427052428051432000000000000000000051430052429053430052431052438050439050438051438052436052437052437053440053443051441050440050440052441053441053442053443052445051445051444051443052443052443053444054445051448050447051446051445052445054445052447052449052461051459051458052458053458053457053458052459052463052463051460051459052461052459054461053461052463051465052463052463052463053461053462054463052473052473051472051471052471053471053472052473)
 (.leaf 53480051478051477051476051477054477052478053480052483052482051482051481052481053481053482052483052489050488052488051485052487053487053488053489051502051503050501052500052499052500052501052503052505050505051504051503051502052503052503054505052510051510051507050507052508052508052508052509051513050514051513051512052512052512052513052513052521051521000000000000052519053517052520052520051535051535051534051533052533053533053534052534052535051535050535051535051535052534053534053535052537051537051536051535052535053535053536054538051547051546051545051544052546053544053545053548051550051549051548051547052549053549053550053551052557051557051556052555052555053557052556053557052574051574051573052572052572053572053573053574053579052578050578051577052577053575053578053579053584052583051583052582053582053582053583054583053619052620052619051617052617052618053618053619053625052625051624051623053623053623053624053625051637050637051636051635052635053635053636052637052642051642051641050638052640053640053641053642051646051646051645050646052646052644053645053646052647050647051646051645051645053645053646053647051650051650051649051648052650053648052651054652051657051658051657050656052656053656054656054658051662050662051662050661052661054660054661053663052666051664051663050663052664053664054664052666052675051675051674050674051674053673052675053677052684051684051683051682052684054683054683054685051689051689051688051685052687053687054686053689052697052699050698052696052695053695053696053699052701050701051700052699052697053699052700053699)))
 (.node 2 (.node 1 (.leaf 52702051702050702050702051702052701052701053704052709050708051708051707052707053707052708053709052715051715050713050713051712052713052713052714000000000000000000000000052717053717000000000000000000000000000000000000000000054031053033055034053038052038000000000000000000054038054039055040052047052045052044053043053043053043053045053046052047052046052045052044052045053045053046053048053049051051052050052047054048055047054048054049052055052057052056052053053053053053053055055056053057051058051058052057052055055056055057054059053060051061051059051059054059055059055059054060053062052062051061051061053060054060054061054062053064051066051064052062053062054062054063054064053079052079053078051076053077053075054076055078053089052089052088053087054088054087054088054089053098053098053098052096053096055097054097054098052103051103051101051101053101054101054102055103053106052106051103052104053104055104055104054106052108052108052107052106053106054106053107054108052111052111051111051111053111054111054112054113053114052114052113052112053112053113054113054114053118051118051117052116052118054116054117054118053123052123052122051119053121054119054122054123053132052132053131052130054131055131054131054132053135052137052134052133054133055133054134055136053142051143053142051142054140054140054141054142053148052148052147053144053146054144055146054146053150052150052149052148053148054146053148054150053152052154051152051152053150053150054151055154053157053157051155051154053155054155053156053156053165052165052164052163053163054163054164053165)
 (.leaf 53168051169051169052168054167054168055169055169054172052173052172051171053171054171054172055173052175052176052175052174053174054174054175000000053175052177052176052175054175054175000000000000000000000000000000000000053178000000000000000000000000052224000000000000000000055223053224000000054229052229053227052225000000000000000000000000000000000000000000000000053230000000000000000000054261053261053260053260053259000000054260055262053265051265051264051263053263054263055265055265054272053273053271052269052269055270054272054273053275053274052274053273054272054273054274000000000000000000000000053323000000000000000000000000053382052382000000000000053380053380054381055382053387053386052386052383053385055385054386054387000000053398053397053396054395000000000000000000000000053399053398053397000000000000000000000000000000000000052400053399000000000000000000000000053408051408051407052406052406054406055407054410054412052413051410052409053411054411054412055412053416053418053416053416054415055415054415054416054420053419053418053418053416054416055418055419053426052426051424052424053424054422054425054426052428052428052427052426053426054426055427055428052437052436000000000000053436054436055436055436053442052442052441052438053440053438054439054442053448051448051448051448052447054446055448055448053466053465052463053462053462054462053464055465052467052467053465052463054463053464055465055465053471052471052468052467052468053469053469054471053482051481052481053480053480054480054481055481053486052484053485052484053484053482054483054484))
 (.node 1 (.leaf 52494052493052492052491052492054491055493053493053495052495052494052493052494053493053495055495053498052498052497052496052496054496055499055500052516051516052516052513052515053515053515053515053517052519051517051516052516053515053516054517053520051521052521000000052520054518055520055521052524051523051523052521053523055522054522054523052526052525052524051523052524054523053525053525052527052526052525052524052525053525053525053526053528052528052527052526052527053526053528053530052530052530052529052528053528053530055530053531052534051535052534052533053533054533054534053535053541052541052540052539053539054539054540055542053545051546052546052543053543055543054544053545053550051549052549051547053548054548054549053550053557052555052554052553053555055554054556054557053560052560051559052560053558053559053559054560053565051565051564051564052563054563053565055565052605052606052605052604052602053603053604053606052607052608052607052606052605053606053606055608053610052610052609052608052607055608053608053609053614051614051613051612052612053612053612054614054629053629053629053628053627053627054628054629053636052636052635052634054634054634054635054636053642052642052641052640053640054638053641053641052651052651052650052647053647053648053648053649053656052656053655053654054653054654055655055655054660052661051659053659054659055659054660054661054664051664052664051662053663055663054664053665052668051668051668052667053667054665054666053668052671052671051670052671053671054669054672053672053673051674052672052671052671053672053672054673)
 (.leaf 52678051677052675052674052675053676053676055678054683052684051681051681053682055681054683054684053689051689052688052687053687000000000000000000054691052691053689051689053689000000000000054691053696052696052695053695054694055694054695054696053699052701052700052697053699054697054698053699053704052702051702051702052701053702054703053703052710052711052710052709053709054709055710054709000000000000000000052717053717054715054718000000053043053043053042054041053042055041054043056044053051053051054050053049054049054050054051054052054068054066054066053064054064054065054065055068055069054069052068054066054068055068055069056069055069054070054069052068055069055069056069055069053073053072052072052072054070055070054072055074054095053095053094053093054093055093055094055095054098053098053097053096055097055096056097055098055103052103053102053101054101055099056100055103054108052108053107053106054106056106054106056108054110052110054109052108054108056108055109055110054124053124053123054120054122055120054123054123054128053128054127053126054126056124056125055128055133054133053132053131054131056131056133056133055136054136053135054135054134056135056135055136054144053146054143053142054142055142055143055144054146053148052146053146054144055144055147055148054151052151053150052151053150054150055152055153054163053163052162052159054161055161055162055163055169054168054167054167054167056167055168056168055173054172054172053171054171055171055172055173000000052175054175053174054174000000000000000000000000054218054218000000000000000000000000000000)))))))))))
 (.node 512 (.node 256 (.node 128 (.node 64 (.node 32 (.node 16 (.node 8 (.node 4 (.node 2 (.node 1 (.leaf 54221054220054218000000000000000000000000055222000000054221054220000000000000000000000000000000000000053230054229000000000000000000000000054263053263053262054261055262055261055262056264054268052269052267052266055267056267055267056269053379000000000000000000054376056378054378055380054379000000000000000000054377054378055380055381054381053381053380000000054379055381056381055381054388053388053387053386054386055386055387055388054402000000000000000000000000000000000000055402053405052405052405000000053403056404054405056406054406052406052405052405054404054405056406056407054412054412053411053408054410055408056410056411054413054415054413054412055412055411056413056414054416053416054415054415055415055416056417056417054422053424053421053420054420056422055421054422055431053430052429052429054430056430056431056431054432054434052431053430055431056431056432055434054436053436054434054434054432055434056434055436055436052437052437053436054436055436055437055438053444052443052443053443053442054443055444055445054449052450053448052449055448055447055448055449053453053452052451052451054452055450054452054453054455053455052455052455054455055453054455056456054458053458053457052457055457056456055457055458053471052473053472053471054471055469055472054472054477052478054477054477054475056475055476055477055481053482053481053480054480055480055481055482054484053486053485053484053482054483055483054484053488053489053488053487054487056487055488054488054496052496053495052494053495056496056496055496055506054506054505054505055504056504056504055507)
 (.leaf 55507052508054506054505055506056504055507056508054518052520053517053516053516055516056518056518054523052524053524053523055522056522055522056523054540053540053539053538054538055538055539055542054544053544053543052543055543056542055543055544053550053550053549053548054548056547055547055548053557052556053557052555054556056555055555055556054563052563053564054562054561054562054562055563055570052569053569053568054568055566056569056569054581053581053580053579054579055579055580055581053582053583053582053581054581055581055582054582053599052599053597052597054596055596055597054598054601052601052600052600053599056600056600054603053604053603052602052601054601054603054603055605054609053611053610052608053608056609056609055611053615052614052614053614054614056613054614056616053617052618052617053615053615054617055618054618054621053621053620053619054619055619055620055621054636053636053635054634054634055634055635055636054638053640052637053636054636055636055637055638053648053647053646053645053646054646054647054648053648053648053647053646053648054647054648054649053649052651053648053647053648054648054649055651054660053660054659054658054656056657055659055660054661054660053660054659055659055659055660055661054669053671052668052668053668054668054668055669054673053673052672052671053672054672055672056674055681052681054679052678054679056678055680055681000000053687054685054683055685055683055686000000054698052700053699053696054696055696055697054698053703053704052701052701053702056700054702055704054707053707053706053705054705056705055706055707))
 (.node 1 (.leaf 54709053709052708053707054707055707056707055709054710052711052710052709055710055710000000000000000000052714052713052713054713000000000000000000054715053717052715052714000000000000000000000000000000000000000000000000054718000000000000000000055030054030000000000000000000056028057029056030056034055034055034053033055032056032055033056034055036054038055035055034056034056034056035056036055041053042055040054039056039057039056040056041055045053046053045053043056044056043056044056045054051054050054049054048056048056048056049055050056058055057055056053055055056056056056057056058056058054059055057055056056057056057056058056059055060054060055059055059056059057058056059057060055062054062054061054060055060057060056061056062055070054070055069055069056069056070057071057071055076053075054075053073055074055074057074057074055078054076053075053075055076057074056077056078054079053079055078054076055078056078055079055079055090054090054089054088055088055088056089056090055099054101054098054097056097056097057100057100055111054111054110054109055109056109057109056111055118054118054117054116054116056116056117056118055120054122054119054118055118056118056119056122055130055129055129054128055128056128057129056130055144054144055143054142055142056142056143056144055153054151053150053150054150056149055151056153055168054168054167054164055166056166056167056168055170055169055169054168055168056168056169057170000000055223055222000000000000000000000000000000000000053224055223055222000000000000000000000000056266055265055265054263056264056263056264057266)
 (.leaf 56272054272055270054268056269057269057270056270055374000000000000000000055372056372056373056376054378054377054376000000055377056377056378056379056381053380054379053379055380057380056381057382056383055382054381053380056381057382057382057384055387054387054386055385056385056385056386057387055402054402000000000000000000000000000000056402056407055407054406053405056406057406057407057408055408054410055407054406056407057407057408056408056419055419055418054416056417056416056417056418055421054421054420054419055421057421057421056421055427055427054426054425055425057423056426056427056431055431054430055429056429056429056430057431054445053444053444054442055444056444056445055445055453054455053453054453054452056451056452056453056464055465053464054462055464056462056463056464056469053469055467055465055465056465056466056467055469054471053469053469056469056467056468056469054473054472053471054472055472056470057472055473055477054477054476054475056475056475056476056477055482055481054481054480055480057480055481057482054484054484054483053482054483055483056483055484054491054490053490054490055490056488057489056492055496054496055495053495056496055494056497057497056501055500055500055499056497057498057498057499056502055503055501055500056501057499056502057503056504055504055503055503056502057503057503057503056504055506055504055503056504057503057503057504056508055508055508055507056508057507057508057508056511055511055510055508056508057508056509056510055516053516053515053515055514055514055515057516055522055521055520054518056518056518057520057520)))
 (.node 2 (.node 1 (.leaf 56522055522055521055520056519057520057520056521055526053526053525053525056524057524057525056526055532053531055530053530055530056528056531056532054537054536053536054534055536057536056537057536055539054539054538055537055537055538056538056539056542055543055542054540055542056540056541056542055548053550054549054548056547056546056547056548056554055554053552055553056552056551056552056553056557055557053557054557055555056555056556056557054562055563054561054560055562056560057562056562055566054568055565053565055564056564056565056566055575053574053574054571055573056573056574056575054588054587053587053587055587056585056588055588055592055591054591053590055588057589055590057591055597054597054596053595055595056595056596056597055607053606053606053604055605057605055606057606055613053612053612054609055611056611056612057613054614054615054614053612055613057613056612056613055622053623054621054620055620055620056621056624054627054627053626053623055625056625055626056627055639053641054638055637055637056637056638057641055641053643053641053641055639057641057641056643054645054646053643053643055644057644057645057645054652054653054652053649055651056651056652057653055669054669053668053668054668056667055668056669055672053672053672054672054672056672056673000000056678054679055678053676055677000000000000000000055680054680054679055678056677000000000000000000056680055681055681054680055680000000000000056680055683055685054684054683055681056681057684000000055697054697054696054695055695056695056696057698055706053706054705053703055704056704056705056706)
 (.leaf 56707054708054707053706055706056706000000000000000000054709055710054709055709000000000000000000056028000000000000000000000000000000000000000000056032055032054032055030056030057030058032057032056049054050056048055047056047056047057048057049056055056055054052054052056053057051057054057055056057056057055056056055056055057055057056058056056063054065055062054062056061057061000000000000055067055068054065054065056066058065000000000000055079055079055078054077056077057075057076056078056084054085055083055082055083057082058084058085055088055087055086054085056087058085056087056087055094055094055093055092056094056092058094057094057101056100055099055098057100058100057101058101056105055105055104055103056103057101058103058104056107054106056106055105056105058104058104057107055113055113055112055111056111057111057112057113056113055113054113055113055113057113057114057115056119054120055118055117056117056118056118057119056124054123054123055120056122057120057121057122057126056125056124056124057123057123057124057125056130055130055129055128056128057126057127057128057130056131056131055130056130057128057129057130056136055136056135056135056134057134058135057136055149055150055149055148056146056147056148057150056157054156055156054154055154056155056155056157056164054163055163055162056162057162057163057164056167056167055166056165057165058165057166057167000000055173055172055171056171057171057172000000056206000000000000056205056204058205057205057206056209000000000000000000055208058208057208057209056211000000000000000000056209057209057210057211))
 (.node 1 (.leaf 57267056267056266056264056264000000000000000000057270056270056269055267057268000000000000057269056274054273056272056272056270057270057273000000056373055373055372000000056371057371057372057373056378056378055377055374056376057374057375057378056385056385056383055381057382058383058384057385057387055387055386056385056385057385058385058386055389056390055389055388056388057388058389058389000000000000000000055394056394057394000000000000056406054405056404055402056402057402057403057404057407056407056406054405056406057404057405057406056408055408056407056407057407057406057407057408057411056411056410055408056408057408057411057412057415055416056414056413057413058413057415057416056439055439054439055439055438056438056438057439056441054443055440055439056439057439057442057443055445054445055445055444056444058444057445056445056454054455055453054453056452057452057453057454056477055477055476056475056475057475058477057477056483055483054483055483055483057483058484058484055488054488055488056487057486058486057486058489056494055492054491054491056492058491057493057494056513055513056512056512056511057511058513057513057523056523055522056522056521057521057522057523056528055530056527055526056526057526057527057528055532054532055532055531056531057529058531058532056537055537055536054533056535057535057536057537055538055537054537055537056537057537058538057539056569056569055566055565056565056565057566056567056571055571056569056569056569056567057570057571056575055575055574055573056573057573057574057575056584055582054582055582056582057580057583057584)
 (.leaf 55585054585055585055582056584057584057585056585057589055588054588055588056588057588057589057590056597055597055596055595056595056596057598058598056602054603054603056600056600058602058602057604055618055618054617056616057616057616057617056618056624055622055621055620055620056620056622058624055626055626055625055622056624058624057625056626055631054630054630055629056629057629057630056630056633055633055632055631056631057631056632057633056635055635055634055633056633057633057634058635056638055638055637055636057636057636057637057638057645054645055644055641056643057641057644058645056652055652055651054649056650058649057651058651056662055664055661054661055661056661057661057662055668054668054668054666055666056667056668056668056669055669054668054668056667056668056668058671000000055672054672054672056672057672000000000000000000056675056674055672000000000000000000000000000000055677056675056674000000000000000000000000056681055681056680055681000000057679057682000000056696055696055695055694056694057694057697057698056698054698055697055696056696057698058698057698057700056700056700054698056698057698058700058700056706055706056705055704056704057704000000000000057030056030057029056028000000000000058029058030057033055033056032056031058032058031058032058035057036056036056035056034058035059035058035058036057051056053055050056049057049058049058050058051057056056056056055055053057054059052058055000000057061056061057060056059000000000000000000058063057067056069055067056067000000000000000000000000056081056080055080055079057080058080059080058082))))
 (.node 4 (.node 2 (.node 1 (.leaf 58094055094056094056091057093057091058094059094057095056095055094055094058094059094059095058095058138057139057138056136057136058136059138058138057140056140056139057139058138058138059140058140057142056142056141056140057140058140058141058142056148056149056146056145057147058147058148058149057158056158055158055157057156057157058159058160057162056162057160056158057158058160058161058162057206056206056205056204058205058204058205059206058214000000057213056211057211059213058214058215000000000000000000000000057216059216059216059216000000000000000000000000000000057219059219000000000000057269057268057267000000000000000000000000000000000000056274056273057273000000000000000000057375056377056376056373057373057373058374058377057380057380056379056378057378058378059379059380057393057392056392056391057391059391059391058393057417057416057415056413057415000000000000000000058421057421057421056418057420058420058421059421057425057423057423056421000000000000000000000000057433056433056432057431057431057432057432059434057439056439056438055438056438058437058438059441058444056444056441055441057442059441057442058444057449055450055450055448057447059448058450058451057457055458056456057455057455058455059456058457057464056464056463056462056463058462059465059465056467056467056466056465057467058465059467059468058473055473057472056470056471059471059471059473057475056475056474056473058473059474059474058475057477056477056476056475057475058475058476058477058481057482055481057480057480058480058481059482058484055483055483057482058481059482059482058484)
 (.leaf 57486056488057486055484058486059485058487059488058490057489056488055488058489058487059489058489057495055493056494056493057493059492059493058495057529056531056528056527057527059527059528058531057537056537057536056535057535058535059536058537057541056541056540056539057539058539058540058541057548056548056547056546057546058546058547058548056552056552056551056550057552057552057553057553057557056557056556056555057555058555059557058557057563056563056562057562057561058561059563058563057566056566056565056564057566058564058565059566057572055570056571056570057570058570059571058572057580056582056579055579056579057579058579059581057585056585056584055582057583059582058584059585057590057589055588056588057588058588057589058590057594055595055595056594058593059593058593059594057600056600056597056596057598058598059599058598058602056600057601056600057600058598059601058602058606055606057605056602057604058604058605058606058608055608057606055606058606058606058607058608056611056611056610057609058609058609058610058611056620055620056619055619056619059619057620059621057629056629055628056627057627058627058628058629057631056631056630055631056630057630058630058631057638056638056637057636057636059637058639059639058646057646057645057645058645058645059644059646058647057647057646057645058645059644059646059647058648057647057647057646058646059646059647058649058652057653056652056651057651059650059650058651057657055656057656055654057655059654059656059656056657056658055656057656056654059656059656058658057662056662055661055661056661059660057662057662))
 (.node 1 (.leaf 57665055666056666056665057665058665058666059666000000000000056673056672057672000000000000000000057679000000000000000000000000000000000000000000000000057684056681056680057682000000000000000000000000000000000000057684000000000000000000000000057687000000000000000000000000000000000000058687056692056690055689055689057690058688058691059690057694056694056693056692058693058692058693057696057698056696056695056694057694057696000000000000057704056704057702057700058700000000000000000000000000056706056705056704057704000000000000000000058043057041056040056040058041059039059042060043057045057045056042057041058043060043060043059045058047056047057046056045057045059045060047059047058051057051057050057049058049060050059050059051000000058056057056057055058055000000000000000000000000000000000000057061058063059063000000000000000000000000058065000000000000000000000000000000058068057070057067000000000000000000000000000000058071057071057070058070059070000000000000000000058074057074057073057072058074000000000000000000058077056078057076057075057076060076060077060077058082056081056080057080058080060079060080060080058084057082057081056081058082060080059083059084058088056087058085058085058084059084058086058087058095057095057094058094059094059093059094059095058100058100058099058098058098060096059099059100059105058104058104058103059103060103060104060106059111057111057110056109058109059109059110060111057122057121057120057119057120058121059122059123058144056145058143057142058142060142060143059144058149056148056147057147058147058147060147060147)
 (.leaf 57152057153057152057151058151060150060150058152059213057211057210057209058211059211059212059213059216057216058214057212058214059214060215059216000000000000057273057270058272000000000000000000058372057372057371057370058370000000059371059372058374057374057373057372058372059372059373059376059379058379057378057375058377059377059378060379059386058385057385058384059383059382060384060386058388057388058386058385059386060386060386060386000000000000057394057393058393059393059394058395058402057402000000000000000000000000000000000000058406057406057405057404059404000000000000060406058429057429058428057429058427059427059428059431058435057437058435057433059434059435060436060436058438056438056438056438057437058437058438060439057445057445056445057445057444058445059446059447058446057446057445056445058444059446059447059448058462056463057461056461058460058461058461059462058465057467057464057463059465059463059466059467059482058481057481057480058480059480060481060481059492057493058491058490058489059491060492059493057495056494057495057494059493060494058494059496057497057497057496056495058497059497059498058499057502057501057500057499057499058501059502058502057505057505057504057503058505059503059504059507058518057518057517057516059516059516059517059518058523057523057522057521058523060521059522059525058533058532058531057529058531059529059530059531058539057539058538057537058537059537059538059539058541057541056541057539058539058539059540059541057546056545057545056542058544060543059545058545058549056549057548058547058547059549058548059551)))
 (.node 2 (.node 1 (.leaf 58557057557057556057555058555058555059556059557058561057561056561057561058561059559059560059561058565056565057566057563058563059563059564059565058567056567057566056565058565059565059566059567058572057572057571057570058570059570059571059572059574057574057573057572058572059572059573059574058579056579056579056578058577058578059578059581058586056585057585057584058584059584059585058586059599058598057598056596058597059597059598059599058628057628057627056626058626060625060627059628058633057633056632057631058631059631058632059633058641057641057638057637058639059637059638059639059649058649058648058647059647060648060648060649059653056654058652058651059650059652059653059654058658056659057659056657058658060658060658059658059666057665056665057665058665059663059666060666000000000000057672058671059670000000000000000000058688057690057687000000000000060688058687000000059031058031058030058029000000000000000000000000059036058036058035059035000000000000000000060036059039058041057038058037058037060037060038061040060043058044058043057041059042061042061042060044059045057045059045057045059045060045061045060045059054059052058051058050059050060050000000000000000000000000058055059052059054000000000000000000059057000000000000000000000000000000000000000000059059000000000000000000059057000000000000000000000000000000000000058063059063000000000000000000060084059084058084057082059083061082060084061084059087058089058088058085058086060085059087061088058090057091058089057089059090059090060091059091059101059100058100058099059099060097059100060101)
 (.leaf 59110059110058109059108060107061107061109060110059113058113059111059111060111060111060112059112059115058117057115059114059113059113060114060115059118057120058119058118058117060116060117060118058132057133057132058132059132059130060133060134059144058144058143058142060142060142061143061145060150058152058151057149059150060150061149061151059155059153059153057152058152061151059154060155058159058160058159057157059158060158060159060160059161058163058162058161058161059160060160060161059213059213058212058211059211060209061211061212059220059219057219059216059218060218060219060220059373057373058372058371059371000000060372061374059378058378058377058374059376060376060377060378059392059391059391058390059390061388061390060392000000000000000000000000059396061396060397000000000000059403058402000000000000000000000000000000000000059404059403058402000000000000000000000000000000059410059409057407000000000000000000000000000000059411059410059409000000000000000000000000000000059412059411059410000000000000000000000000000000059413059412059411000000000000000000000000059428058428058427058426059426060426059427060428059433057432057431058429059431060431061432060433059435059434057432057432059433060433061433059434058444058444057442059441059440061441059442060444059454058454058453058452058452061453060455061455058458057460058457059456059456059458059458061459059463059465058462058461058461060461060462060465059475058475059474059474059473059474061474060475060481058481058480058477059479060479060480060481060494059493059492059491060492060492060493060494))
 (.node 1 (.leaf 59498058498058497057495059496060496060497059497059504057505058505057503059502059502060503059504058508057510058507057506058507060506059508059509058514058512057512057511058511060510060511059512058515058514058513058512058514059512059514060516059519057520058518058517059517059517060518060519060521058523059521057520059519060519061520060521059522057522058523059521060520061520060521060522059531058533058532058531059529061530061530061532059537058537059536058535059535059535060536060537059541058541058540058539058539060541059540060541058545057546057546057544059545061543059545060547059551058549058548058547059549061548060548061549059553057553057552058549059551061549061550060553059572058572059571058570059570059568060569060570059578057579058577057577059576060576059578060580059583059582059581058579059581061581060582060583059599059599058598058597059597060597059598060599059607058607058606058605059605060605059606059606058612057612058611058610059610060610060611060612060618059619059617057617060617060617060618059619058632058632058631058630059630060630060631059632059644059644059642059641059640060642060643060644059654059653058651059650059652060652060653060654060658058658059656059656060656060656060657061658059658058658057658058658060658061658000000000000060661059660057661058658059658000000000000060660059663058665057662057662059663000000060662060663059669059668059667059666060666060667060668000000000000000000059670059670000000000000000000000000000000000000000000000000000000000000059683059685058686000000000000000000000000059685060686000000)
 (.leaf 59035060033059031000000000000000000000000060038059038058037059036060036061036061037062039000000059063060061059059000000000000000000000000000000060077060076000000000000000000000000000000000000060077060077060076000000000000000000000000000000060080060079060077000000000000000000000000060085058086059084060084061084061083061084060085060092058092060092058090059091060091060092062093060097059099060096059095060095060095060096061097061109059109060107059105061107060106061108061109060123058124059124059123060121062123061124061125059128058128059127059124059126060125061125060126059128059129058128059127060125061125060126060127060128058130059129058128059128060126060127060128060133059133059132059129060131060131061132061133059134059133058132059133060133061133061134061135060147060147060147058147061146061145061146061147060157059155058155059155060155060155061156061157060161059161059160058161059160062161062161062162060166059166059165059164060164061164062165062166059168059168059167059166060166062166061167061168000000000000059170059169060169061169061170000000060207059207059206059205060205061205060206061207060209059211059208059207060207061207061208061209000000000000000000000000060231061229061232000000060372059372059371000000000000000000000000061372060378059378059377059376060376061376062377061378061385060386060384059382061383061382062385062385061390060391059390060389061388061387061390061391000000000000000000000000060397000000000000000000000000060406000000000000000000000000000000000000000000000000000000000000000000000000061410060411)))))
 (.node 8 (.node 4 (.node 2 (.node 1 (.leaf 60411060413000000060417000000000000000000000000000000060416061417060428059428059427059426060426061426061429061430060433059433060432059431060431061431062432061433061440060439058438058437060438061436061439061440060446059448059447059446059446060444061447062448059452060451060451058449061449061448060450060450060455058455059454059453060455060455061456062456060462059462058461058461061461062460061461061462060470059470059469059468060468061466060469061470060475059475059474059473059474061473061474062475060481060481059480059479060479061479061480061481060491059491059490059489060489062488061488060490060503059503059502058502060501060501061502061503060511059511058511059511059509061509061512061513059517059516058515058515060516061516061517061518060527059527059526059525061525062525061528062527060532058533059531059530061530062531062531061532060538059538059537059536060536062535062535061538061543059545060543059541060541060541061542061543061548059549060547058545060547062546062546061547060548058548059549060547061548062546061547061548060555058554059554059553060553061551061554062554061555058555059556058554060555062554062554061555060556059556058555059556059556062554061555062557060562059562059561059560061560062561060561061562060567059567059566059565060565062567060566061567060570059572059571059570059568061568061569060570061575059575059574059573060573061573060574061575060582059582059581059578060580061580061581060582060590059592059591058590059590061588060589061592060607058608059608059607059606061607061608061609)
 (.leaf 60626060625060625060624061623061624061625060626060627060627060625060625061625061625060626062627060631059631059630058630060629060629061630061631061640059639059638059637060639061637061638061641060644059644060643059640060642061642062643061644060653059653059652060649060651000000000000000000000000059663060661060660000000000000000000000000060664059666059663060663060662000000000000000000000000060688058686059686060686000000000000000000000000000000058687060688000000000000000000000000061037060037060036000000000000000000000000000000062042061042061040060038062039000000000000000000061044060044061042061042062042000000000000000000061049060049060048061048061047062047062048062049000000000000060050060049061049062049061051000000000000060084061082000000000000000000000000000000000000059090061088059087061088000000000000000000061089060091059090061088062089000000000000000000061094059094060095060092062093062092062093062094061097060097060096060095060095062095062096063098060101060102060101059100061100061100061100061101061108061107061107060106061104061104062105061106060112059112060112060111060110061110061111062113061115060115060114059113061113061114061114061115061134060134060133059130061132062132062133061134061152059154061151061151061150062152063153062154060157060158060157059155061156062156063157062158062161060160059160060160061160062160062161062162061205060205060204000000000000000000062204062205061213061212061211060209061209061209062210062211061218060218060217060216061216063216062217062218061220060220060219060218061218062218062219062220))
 (.node 1 (.leaf 61229060231000000000000000000000000062228062229000000000000000000000000061232062230062231000000061372060372000000000000000000000000062371063373061376060376061374060372061372063373063374063375061378060378060377060376061376063375063376000000062385060385061383061381000000000000063383062385061392060392061390061388061390062390062391063392000000000000060397061396000000000000000000000000061408000000000000000000000000000000062407062408061410000000000000000000061408062408063409062410060421060420000000000000061420061418062419062420061424059424059424059422060424061423063423062424061426060426060425059424061424062424062425062426061431060431060428059427061429063428061430062431061441061441061440060439061439063437062438063441062448060446060445059446060444061446063447063447060450060451061449061448061447062449063449063449060455060455061453059452061453062451062452062453061460061459059458059458061458062458063457062458062460060461061459059458062458063457062458062459060465060466060465060462061462061462061464061465061472059472059470060470061470062470062471062472061476061476060475061474061474062474062475062476061481060481060480060479061479062479062480062481061488060490060489060486062487062488063489063489060493060494060493060492061492062492062493061493060498059497060497060496061496062496062497061497061512060510059509059509061508061509061510062512061514059512060511060510061512062512062513061513061528061530060527060526061528063526063528063529062531061530061530061530061528063529063529062530060539060540059538060538061538062536062537062538)
 (.leaf 62546061548060547059545061546061544062545063546062550061549060548061548061547063548062550062551061551060553061550061549062550062551063550062551062554059556060555059553061554062552062553062554061563059564060562059561060561062561062562062563061569060569059568060567061567061568062568063571060582060582061581060580061580062580062581062582061588059590060589059587060588061587062587062588061597060597060596060595061595062595062596062597061607059606059606060605061605062603061606062607061619059619060618060617061617062617062618062619061624061623061622059622062622062622061623061623061630059629060629059627061628062628062629062630061642060642061640061639061638063640062641061642000000061645061645060644061644000000000000000000061681000000000000000000000000062679062680062681000000060686059685059683061684062684000000000000062049061049061048061047062047063047062049000000062096060096060095061094062094063096062095063098062104061104061101060101061101064101062102064102061110060110061110061109062109063107062109063111062120062119060117062118062118063116063117062119061136061137061136061135062135063135062136062136061143061142061141061140061141063140062142062143062145061145061144061143062143062144062144063147061150061149061148061147061148062148062149062151063153061151061150061149061150062151062151063153062160061160060159060157062158064156062159063160062211061213061212061209061209063209063212063213063216061216060214061214062214063214063215063216062219061219061218060216062217063217063218062219000000000000000000000000000000062220062221062222)))
 (.node 2 (.node 1 (.leaf 62221062222000000000000000000000000000000000000000000000000062226062231000000061232061229062229062229063232063233000000000000000000000000000000064351062351000000062371000000000000000000000000000000000000000000062387061387062386062386062385062386062387062389000000061395061394061393062393063393000000000000062408061408000000000000000000000000000000063408062410061410000000061408062408063408063409063412061418061420061417060416062416062417062418063420062438061440061439061436063437064438063437063438062443062443060443061443062443064441063442063443062466061466061465060465061465063464063465062466062476061476062475061474062474063474063475063476062481061481061480061479062479064477062479063481062489060490061488062488063489063489063490064491061493060493061493061492062492064491063493063494061502060501060501060500062499062499063500062501061503061503061502060501061502062501062503062503061509061508061507061506062506062508062508062508061513061514061513061512062512063512062513063512061517061517061516061515061514063513062515063517062520060518062519061518062518063518062519063520062525062525061524062523062523062524063524063525062540061542061539060539062538062538063539063540061568061567060566062567062565063565062566062568061573060574061573060570062572063572063573062573062580061580062578061576063578063578063579062579062588061588060588060588061587063586064588064589062593061593061592060589062591063591062592062592062600061602060600061600061599062599062599063602062607061607060605061605062603062605063606063607)
 (.leaf 62609061609061608061607062607063607063608062608062626060626061625061624061623062624063625063626062632061632061631061630062630063630064632063632062639061637062636062636062635063635063636062637062641061641061638061637062639062637063640062641062681061681061680000000062679063679063680063683000000000000061685061684062684000000000000000000063047062047062046062045063045064045063046000000063093062093062092063091064092000000064092064093063098062096062095062094063096064096065096064096063103061104062104062103062102064101064102064103063107062109061106062105062105064107065108063107062112062113061111061110063111064111064112063112063120062122062121062120062119064118065120064122063127062127061124061124063125064125063126064125062138061137061136062136062136065135063136063137063140061141061139062138062138064138064139065142062144061145062143061143062143064142063144063146062148062148062145061145062144063146063147063148064162062162062161062160063160064160064161064162063167062167062166062165063165065164065165064167000000000000000000000000063173064173064174000000063205062205062204000000000000000000000000000000063207062207062206062205063205000000064206064207063214062214062211062210063212064212064213064214063234000000062231062230063232064230063233063234000000063374063373062371000000000000000000000000000000063375063374063373000000000000000000000000000000000000063376063375000000000000000000000000064384062385063383000000000000000000000000064383062390062390062387062386062387065386063388063389062390062391062390062387062389063388063389065390))
 (.node 1 (.leaf 63393062393063392062391062390065390063391064393063414062414063412062410063412065410064411064412063424062424063423061423063422063423063423064424063438062438063437063437064438063437064439064440064441062443061440063441063441064441064442065443063443062443063442062443064441065443063442065444064447063447063447061446063446065445065446065446064447062449063447063447064446065446065446064447063458062458063457062458063456064458065459065459062470062471062470063469063469064467065468065470063482062482062481062480062479063480064481064482062495062495061493062493063493064493064494064495063500062500062499062498063498064498063499064500062508062506062505062504063506064504064505064506062513062513062512061510063511063511064512063512062519062519062518061517063517064517063518063519063521061521062520062519062519063519064520063521062524062523062522061522063523064521064524064525062538062538062537062536062536064536063538063538063565062563062562062561063563064561064564064565063568062568061568062566062566065568063568065569063573063573062572063571063571064569064572065573062583062584061583062582062580063582064583064584062592062593061592062591063591064589064590064591062595062595062594062593062592064591063593064595062603061603062603062600063602063600063602063603063607062607061606062603062605063605063605064607063613062613061611061610063609064609063611064613062614062615062614062613063613064613064614063614062617062617062616062615062614063614064614063615062626062627062626061623063625064625064626063627063636062636062635062634064634064634064635064636)
 (.leaf 62641062641063640062639062637063639065639000000000000000000063642061642000000000000000000000000063680062680062679000000063678063679064679064682000000000000062684062681063683064683064684000000064045063045000000000000000000064044064044000000064093063093063092064092000000000000000000065093064104063106063103064102064102066103064104065106063112062112063112063111064111066110065110065113064116062115062114063114064114065114064115065116064118062119063117063116064116066118066118066118064131063133063132062131063131065129065130066131064133063135063134063133064131066131066134065135064139063139062138062138063137064137065138065141064142062143062142063140065142066141066141065142064161064161063160062159064159066159066159065161064169063169063168063167064167065167065168064169064173063173062171063171064171065171065172064173064207063207062207063205000000000000065206065207064209063209062209063207064207065207065210065211064219062219063218063217064217065217065218064219063224000000000000062222063223064222064223064224063226062226000000000000064224064225065225064226064230063232062229063228064228064229065229065230000000000000000000000000064235065235065236000000000000000000000000062351000000064352064353065354000000000000000000000000000000064353065354065355000000000000000000063393064393000000000000000000000000000000000000000000000000000000000000064403064409063409063408000000000000000000065408065409064419063421063420062418064419065417065418065421064424063424062424063422063423064424064424066425063428063427062426062426064427066426064428065429))))
 (.node 4 (.node 2 (.node 1 (.leaf 64432064432063431062431063431065432065433065434064454064452064451064451064450066450065451065452064456064455064455064452064454065452066454064456064467063469062466063465063465066466066467066467064483063483063482063481064481065481065482064483063497063497063496062497063496064497065498064498063499062499063498063497063497064498064499064499064508062508062508062508064506065506065507065508063512063512062513063512064512065510065511064512064517063517062515063513063513064514064515064517063519062519063518063517064517064517065518064519064536062536062536064534064534065534065535065536063543062544062544063543063541064542065542064543063545063545063544062544063543064543064545064546064555063555063554063553064553065553064554065555064569063571063568062568063568065567066569065569064574062573063573063572064572066571065573065574064576063576063575062573064574065574065575064575063596062596063596062595064595065593064595065597063600062599062599062599064599064597064599065601064609063609063608062608064607064607066610065611064621062620062620062618064619065619064620064620063627062626063626063625064625065623066624065625064636063636063635064634064634065636066637000000000000000000000000000000000000000000000000064673063676000000000000000000000000064676064676064677064679063679063678062678064677064677065678066681064684000000063683063680064682065682066681065684065094064096064093064092000000000000000000000000065099063100063098064097066098066097066098067101066108065108064107064104065106065106067106066108065110064112064111065109066110066110067111067111)
 (.leaf 64115063114064114063112065113066113066114066115066118064116063116064116065116066116067117066118064122064122065120064118066118066118066119066122064125063126064125063123065124066124065125065125065127064129064126064125064126066125066126066129064137063136065135064133065135066135065136066137065138064138063137063137065136065136066137066138066141065142065142064139065141066139066140067143065143063144064142065142066141067143067143065143064147063148063147063146065146067145066145067146064151064151063148063148065149066147067148066151066159064160064159064156065158066158067158066160065163063163064162064161065161066161066162065162064173064173063171064171065171066171066172066173000000000000000000064174065174066174065175065175000000000000000000000000000000066175065177066179065207064207064206000000000000000000000000066207064212064212064209063209065210066208066209066210065212064214064213064212064212066210066211066212065217064217063216063214065215065215066216066217064221064221064220064219064219065218065219065219064229064228063228063226064226066226066227065228065230064230064229064228064229065228065229066230065235064235063234063233065233066233066234066235064352000000064351000000065350000000066349066352000000000000000000000000065354067354066355000000066384065384064383000000000000000000000000000000066385065385065384064383000000000000000000066385066387065386065385065384066384000000066385066386065392063391065390063389066389067389067390067391066413064412064411065410065412066410066411066412065421064419063420064419065417067417065419066421))
 (.node 1 (.leaf 64423063423064422064419065421066421065422065422066430064431065429063428065429066427066430066431065434064432064431063431065432066432066433066434064439064440064439063437065438066436066439066440066450065450065450064447065449067448067449066451065452064454064451064450066450066452067452066454065460065459065459064458065458067456067458065460066462065462065461065459066461066461067462066461065463063464063463065462066462066461066462066463066468065468064467064466066467067468066467067468065476063477065476065474065474067475066475066476064483064483064482064481065481066479066482067483066487064487064486064485065485066485066486066487064497063496063496064495064494065494065495066497065511063512064512063511065509066509066510067511064519064520063519063518065518066516066517066520064524064524064521063521064521065522065523065524065542064542063541063540065540065541065541066542065559064559064558063557065557065557066558066561066569065569063568065568065566065567066567066570065578064578063578064576065576066576065577066578065584064584064583063582065580065582066583065583065585063586063585063584064585065583066584065585065588064588064587063586064587065587065587066588065590064590064589064588065588066588066591065592065602063600063600063600064599065600065601066602064607064607063605063605066604065603065605065606065608063607064607063605064606065605065606065608066610063608064607063607065608065608066609066610064613064613063611064609065611066611065612066611064613063614064614064613064613066611065613066615065614064614063614064614065612065613066615066616)
 (.leaf 65619064619065618063615065617066617066618066619065636064634064633064632065634066632065634066636000000064636064635064634065636066636000000000000000000000000065639063639000000000000000000000000065678063679064677063676064677065677066677066680065684064684064683064682065682067681066681065683065685000000064684064683066681066681065683066685066042000000000000000000000000067042067043000000066104066103064103064100066102068102067101067102067105064104066103064103067103067101067102068104066110066110065109066108066108068108067109067110066115064115065114065113066113067113067114067115066119065121066118066118067119067119067120067121066124065124066123064122066122068122068122067122066126064126064126064125065125066125067125067128065136065136065135066134066132066132067135066136066145065147065146065143065143067143068145068146066147065149064147065147066145068146067146068148065152065153065152064151066151068150066151068152066160066159066159065158066158067158067159066160066168065168065167065166066166067166067167067168066173064173065172065171066171067171066172067173065177000000000000000000065175067174066176068177065179000000000000000000065177068177066178067180000000000000000000000000000000066182067183000000066212065212064212064212066210067210066211068213066217065217065216065215065215068214066215066216066223064224064223064222066221066222067222067223066235065235065234065233066233067233067234067235066349064351065350000000000000000000067348068350067354065354064353064352066352067352000000000000000000000000000000065355066355000000000000000000)))
 (.node 2 (.node 1 (.leaf 66380000000000000000000000000067376066378066380000000000000000000000000066380066380000000000000067388066387066387066385066385067385067388068388067390065391066389066387067388068388000000000000066402000000000000000000000000000000000000067402066413066413066413064412066411066411067412066413066427066426066425064424067424067423068424067425066436065438064436065436066434068435068436068437067441064440064439065439066439068439067440067441067444065444066443064440066442067442067443067444067445065445065444066443067442067443067444067445067455064456066454065452066454067454067455068456066455064456064456066454067455067455068456068456067465066464065463066462066462067462066464068465067468066467066466066464067465068465067465068467067472065473065470065469066471067469068471068471066473064473064473065473067472068471068473068473066482065482065481065478065478067478066480067482066484066484064483065482066482067482067483067484066486064486065485066484066484067484067485067486065501064502064499064499066500067500067501066501066506064505064503064502066504067504067505067506066510065510065509065508065508066509066509067510066517064519065518064517066515067515067516067517065522064521065521064519066520067518068520067520065525064525064524064524065524066524066525067526065525064527064525064524065524066525067526066527066538065538065537065536066536067536066538067540066546064545064543065542066542066543066544066546066551065551064550065549065549067549067550067553066563064561064561065559066561067559067562066562065567065566065565064565066566067564067565066567)
 (.leaf 65574065575065574065573066573066571066573067575066578065578064578065576066576066576067577068579065582065580064580065578066578068579066580066582065583065584064582065580065582066582068581067582066584064585064585065584065583067582067583067584066588065588065587064587065587067588067589067590066592064592065593065590065592066591067591067592065597065597064595065593066595067593068595068595065605064606066604065602066602066602066603067604066611065611066610064607066609066609067610066610066617065617065614064613066615067615066616067617066632065634064631064631066630067630067631066632000000000000066637065636066636000000000000000000065677064677064676064676066674066674066676067678066677064677064677064676066675066676067678068679067681065682066681065678066680067680067681067682000000000000000000065685066685000000000000000000067039000000000000000000000000000000000000000000000000066042000000000000067042000000000000000000067098066098066097066096000000000000000000000000068108066108067106065106067104068104068107069108067111067111066110066109067109068109068110067111067122066124066123066122068122068122068123067124067130065129066129066126067128069127068129067129068142067143066140066139067141068141068142068143067143065143067143067143068142068143069144068145067148067148066147067146067146068148068149068150067158066158067157066154067156068156068157068158067159067158066158067157068156068157068158068159067163065162066162066161067161068159068162068163067165065164065164065162067163068163067164068165066174065175066174066173067173068173067174067174))
 (.node 1 (.leaf 66182000000000000065179067180069180067180067182000000000000000000000000066182067182068183068184067210066210066209066208067208068208068209068210066221065221065219065219067220068220068221068222067228065228066227066226066227067227068227068230067235066235066234066233067233068231067234068235067348000000000000000000000000000000000000000000000000067354067353066352067352068350068351068354000000000000066355067354000000068354068355000000067376000000000000000000000000000000000000068376067385066385000000000000000000000000000000068385000000067389067388066386067388068386000000000000000000067391067390067389000000000000000000000000000000000000067391067390000000000000000000000000067402066402000000000000000000000000000000068402067404066404065403066402067402068402069404068406067408066408065408000000066407067408069407067408067417067417065417065416066417068415068416068417066421065422066421065419067420068418067420067421068422065422065422066421066421067420067421069421068424066426067424067423068422068422068423068424067425066427066426067424067423068423068424068425066432066433066432066431067431068429068432068433068458065460067458067456067456068458069458069458068462066461067462066461067461068459069461069462067469066471067468066467068467068467068468068469068473065473067472065471068471068470068471069473067484066484067483066482067482068482068483068484067497066497065495065494067495068495068496067496067506066506066505066504067504068504068505068506067518066520066517066516067516068516068517068518067521065523065522065520068520068519068520069521)
 (.leaf 67532066532065532066532066532068530067532067532067536066536066535066534066534067535067535068538067541065541065541066541066540068539068540068541067559066561066558065557066558068559067558068559066562066564066563065561067562069562069562067563067577065577066576065576067575068575068576069578067585065585066584065583067583068583068586068587067593066595066592066591067591068591069592068593067598065600067598065597067596068596067598068600066602066602065602066602067602068602068603067603067605065606065605065603066603068605067604068605067610065612066611066610067610069609068609067612067614065613066611065612067610067612068613068614066621065621066620066619067619069618067620067620066623065622065622066622067622069620067623067623067624066624065623065622066623067623067624069624067626065626065626066624067624069624067626067626066628065629066627065626067626067626067628068630067631065631066630065629066630067630068632000000067672065673000000000000000000000000068671068672066676066675066674066673066673068673067675067675068679066677065677066675066676067675067677068679068109067109068108067105068107068105069108070109068110067110067109068108069108069108070109069110067118067118067117067116068116069116068117068117068120067120067119067118067118068117068117068118068122068122067121067120068120068118069121069122068129066129067128067125068127069125069128069129067130067131067130066129068129069129069130069131068134066132066132067132068132069132070133069134067138066138066137066137068137070136070137069137068143068142068142067141068141070140069142068142))))))
 (.node 16 (.node 8 (.node 4 (.node 2 (.node 1 (.leaf 68154068153068152066151069151069152068153069154000000000000000000000000067184069183068185068186000000000000000000000000000000068185068186069188068215066216066215068214068213069213069214069215068217066217066217066216068215069215069216069217068222066221066221067220068220069220068221069222067225066225067223067222068222068223068223068224068225067225066225067223067223068223068224070227068227066227066227067225068225070227069228069229068231067233067230066230067230068230068230069231068237000000067236067235068235069235069236069237068351000000067352068350000000000000070351070352000000000000000000000000068354070353070353069356068377066378067376000000000000000000000000069377068386067388067385000000000000000000000000000000068402067402000000000000000000000000000000069402067408066407066407067404068406069404069405070407068410066411066409067408067408069408069409070411068418067420067417066417068416068417069417069418068425067425068424067423068423069423070425070426068429067431066430067429067429069427070430070430068434068433066432066432068432069432069433070434068438068437068436068435069436069436069437070438068439068439068437068436069436069437070438070438068445067445067444067443068443070442068444068444067452067453067452067451068451069451068452068452068456068456067455067454068454069452069455069456068459067461068458067457069458070457069458069459068477067477066476067475067475069475068476069477068479066480067478067477068477069477069478069481068484067484067483067482068482069482069483069484068488067488067487067486068486069486068487069488)
 (.leaf 67492066492067491067490068490069490068491069490067496067497067496067495068495069495069496068496068505067505067504067501068503069503069504069505068522066524067521067520068520069520070521069522068527066527067526066525068525069525068526069525067539066538067536067535067535068535068537068538068548067548066547066547067546069546069547069550068552067554067553067550067551068551068551069552068559066558067558066556068555069555068557068559069573066573066571067572067571068571068572069574068586067584067583067582067583069582068584069586067588067588067585067584068586069586069587068588067591066591067591067590068590070590070590068591068596067596068595068595068594069594069595069598068602067602068600067598068600069600069601068601067604067604066603066602067603068604069605069606068606068606067605067604067604069606068605069606068609066610067610066609069607069609070610069609068615067615067614067613068613069611070613070614068632067630066630066628068630070629000000000000000000066632067631067630068632000000000000000000068673066673067672066672068671069671069672069673000000067684067683067682068682069682069683000000070100068102069100000000000000000000000000070102069112068112067111068110069110070110071111071111068117067118067117068116069116069114070115069118069138067138067138068138070137071137070137070140069144069144068143068142069142070142070143070144068155068156068155068154069154070154070155071156068161068159067159068159069159070159070160070161069170068170068169068166069168070168070169070170068172068172068171068170069170070170069171069172))
 (.node 1 (.leaf 68177068176068175067175068175069176069177070178000000000000000000000000069188070188069189069189000000000000000000000000000000069189069190069192069220068220068217067218069216070216069218070220069222068222068221068220069220070220069221070220068229068230068227067227069228071227070229071229068230068230067230068230068229071229070229069230069231068231068230067230068230070229069230070233069236068236068235067234069234070234070235070236000000000000000000000000000000069240069241070242000000000000000000000000000000069241070242000000000000000000000000000000069356070356070357000000069377068377068376000000000000000000000000070377070407069407067408069406069405070405069406070407069411067412068410069409069409070409070410070411068416068414068413067412069414071413071413070416069423068423068422069421069421070421070422070423069427067429069427068425070426070425070428069429070434068434068433068432069432071432070431070434069437069436069436068435069435070435070436070437070442067441069440067440069440071440070441070442069446069446067446067446068444071444070445070446069451068451067450067448069449070449070450070451069457068457068456067455069455070453070456069456068466068464068463068462069462069462070463069464069481068479067479068477069477069479071479070481069483068483068482068479069481070481070482071482069490068490067489068488069488070488070489069490068493067493067492067492069490070490069492069493069495068495067493067492068492069492069493070495068496067496068496068495069495070495070496000000000000067500068498067499068498069498069499069500)
 (.leaf 69500067501067500068498069498069499069500069500069505068505068504068503069503070503000000070505069515068515068514068513070514070513070514070515069517068517068516068515069515070515070516070517069522068522069521068520069520070520070521069524068526067526068525068522069522069524070525070526068535067535067535067535069535069533070534069536068555067556068555068552069552069554069555069555069562069562068559067558069558070558069560069561069567067568068568067565068566069566069567070569069575068575069573067571068572070571069573069574069576068576068575067575068575070574070575070578069579068579069578069578070578071577070578070579069582067583068583068580068581071580070581070584069599067598068596069595069595069597070598070599069609069607068606068605068605071606071607069609069611068613067612068609069609070611070612071613069614067616068615068614070613070614071615071615070617067617069616067616069614071615070615070616070619067620069618067617070617070616070617070618070621069620067620067620070619070618070619070620070626069624067624067623069624071623071625071625069626067626067626069624070626071625070627070628000000067630068630067628069629070629070630000000069674067675068673068672069672070672070673070676068679068679067677067675069677070677069678069678069679068679067679068679068679069678070680071681000000000000067682068682069682000000000000000000071102070103069101070100070102071100071101071102070113069113068112068112071113072113071114072114070115068117069116069113070113072114071114071115070117068117068117068117070115071115071116071117)))
 (.node 2 (.node 1 (.leaf 69121069122069121068118070120070120070120071122069125068125069123068124069123070124071125070125070126069128069125068125069125070125071127071128071137070137070136069134069134072136071137071138070142069142070140069138070140071140071141071142069147069146068147069144070144071144070146071148070151069151069150069149069148070148070149071151070153068153069152069151070151071151070152071153070160069160069159068158070158071158071159072159070165068166069166069165069164070164071166071167069174069175069174069173070171070173070173070174069192000000000000000000069190070191070191070193069194000000000000000000069192070193071194071195070204069204000000000000070202071202071203071204070207069207069206069205069205071207072206071207070211069211069210069209071209071209071210071211070216069216069215069214070214071214071215071216070224068224068223068223069223071222071223071226070229069229069228070227071227071227071228071229070229068230068229069229070229071229072230072230070235069235069234069231070233071231071232071235000000000000000000000000070242071242000000000000070347000000000000000000070345070343071344070347000000000000000000000000070347070347070347000000000000070352070351000000000000000000000000000000000000070353070352070351000000000000000000000000070353070353070353070352000000000000000000000000000000000000069357069356070356071356072357072357070377069377000000000000000000000000000000071377000000000000000000000000000000000000071392070393000000000000000000000000000000071392070393070394000000000000000000000000000000070397000000000000)
 (.leaf 69404069404069403069402070402070404070404070404069406070407069405069404069404070404070406070408070418068417068416068416070416071414071417072417069418069418069417068417070418072417071417072419070430070430069427070426070428072427072428070430070451069451069450069449070449071447070449070450070461069461069460069459071460071459072460072462070463068463069462069461070461072462071462071463069466068468068466068466069464070466070467071466070474068475069473069472070472071472070473071474070476068476069475068475070474071474071475072476071482069483069482069481070481071481071482071483071486068487069486069485070485071485071486071487069490069490069489069488070488071488071489070489070490069490068491069490069490070489070489071492000000068496069496069495070495000000071496070497070505069505069504069503070503000000070503072504069506068507000000069505070505072504072505000000071510070511070510069508070508071508000000071510070511070511070511070510071510000000071510071511070536068537068535068535070534071534071535072537070545068545069544068544069543071543072544072546070548069550069547069546069548071546071547071548070550068551068551069550070548071548071549070552069554069552068551068551070550070552070552070554069555068555068554069552069554070554070554070556070558068557069555068555069555070556070556070558070571068572068571068571069570070570070571072571070575068576068575069575069574070574072574071577070579069579069578070578071577071577071578072579071584069586068584069582070584071584072583071584070586068588069587069586071584071584071587071588))
 (.node 1 (.leaf 69591070590070590069589070589071589070590071591070591069591068591070590069591071591071592070593069605069606069605068604070604072604072604072605071615070614070613069611071613072612071614072614071623069624070622070621070620071620071623071624070673069673069672069671070671071671071672071673000000069682069679068679070680000000000000000000071103071103071102071102071101000000072102071105070105070107069105071103071103071105072106072107070108070110070107069106071108072108073109072110071109071111070110070107072109073109072110072111072114070113069113071113072113072113072114073114071117070117069118070115071115071116071116072117071127070125069125069123071125072125071126072127070149069149069148069147071148071148073148072150071153070153070152070151071151072151072152072153072154070155070154070153071153072153072154072155072159070160070159070158071158072158073159073159070164070164069163070162071162072162073163072164070167070168070165070164071166072164072165072168070171069171070170070169071169072169072170071170071176069176069174069174070173072172071174071175072190069189069189070188070187071188072189072190000000000000069194069194071194072194072195000000071204070204070203070202071202072202072203072204071211070211070210071209071209072209072210072211071216070216070215070214071214072214072215072216071223069223069223070221070221071221072222072223071228071227071227070224071226072226072227071227071232070234070233069230071230073232071231072232071237070237070236070235071235072233072236072237000000000000070242069241071241000000000000000000)
 (.leaf 73341071341071344069345070345000000000000073343073344072344072357000000070357070356071356072354072357072358071377070377000000000000000000000000000000072377000000000000000000000000071380072378072379071382000000000000000000000000000000071382071382071384000000000000000000000000000000071384071384072386000000000000000000000000000000000000071390071391000000000000000000000000000000071390071391071391071392000000000000000000000000071391071391073393000000000000000000000000000000071397071398073399071399000000000000000000000000071398073399071399070402070401070400000000071399071399071401072403071409070409069408070407070408072407072408073409071414070416071413071413070412072412073414072416072437070437070436070435071435072433071435072437071441070441071440070439071439072439072440071440071445070445071444071444070443071443071445072447071456070456070453069452070453072452071454071456072457071457069456070456071456071456073457072458071463070463069462070461072462072461073462072463071466069466069466069464070466072464072465071466070472070471069471069471070471071471072472071472070473070473070472070471070472071472072472071473071475069476070474070473070473071473073475072475071481070481071479069479072478073478073479072481071494069493069492070490071492072492072493000000071499069498070498000000070497071497071498071498000000069500069500069499000000071499071500071501070503000000070503069500000000071501071502072504070508070507070506069506000000072505071507000000071513070513000000070511071511072511072512072513))))
 (.node 4 (.node 2 (.node 1 (.leaf 71516070516070515070514072514072514072515072516071520070520070519070518071518072518072519072520071528069529070527070526072527072526072527072528071534070532070531069530071532072530072533073533071535069536070534069533070534071534072534072535070541070541069539070539071539072537073538072541071549069550070548070547071547072547072548072549070563069564070564070563071563072563072564071564070570069570069570070569070569072567071569071570071572069573070571070570070571071570072571072572071578070578071577070578072576072576073577072578071581070581071580070579072579072579072580073583071584071584069585070584071584073583072583072586070598070598069597069594071596073594072597073596070600070601069599070599071599072597072600072601072604070604069601070602071602072602072603073604071607069609071607071606072606072607073608073608072612070612070611070610071610072610072611072612071617070617070616070615070616073616073617073617071620070620070619070618070618073620073620072620071625071625071623070621071623073621071624071624070631000000000000000000070631071631072632073632071673070673070672070671071671072671072672072673071678069678070677070676071676073675073676072678000000070680069678069678071678072678072679000000072102071102071101071100000000000000000000000000072108071108070105071106072106074105073107073108071116071115071114072114073114074115073114072115071116071116071115071114071114073114072115072116071122070123071122070120072121073119072121073123071126070125071125070124072124073124072125073126071134071134071131070131072132073132072133074133)
 (.leaf 72136072136071135071134071134074133072134073136071145070146071144070144071144072145073146073147072152070152071151070149072150073150073151072152072164070164071163071162072162073162073163072164072165071167071166070164071163073163073164073165072170071170071169070167072168073166072169073170072172070173070173071170072170073172073173073174072175071177071176070174071174073175073176072177072181071181071180071179071178072178072179073181072195071195071194070193072193073193073194073195071220070220071220072217072217072217073218072219071227071228071227071226072226073224073227072227072231072230072230071229072229073229072230072231072233071235071232071231071231073233073234073235072238072238071237071236072236073236073237073238000000000000071242071241000000072240072241073243072242000000000000071242000000072241073243073244000000000000000000000000000000072247073248000000072344071344070343000000073343074343073343074345000000000000070347070347072347073347000000000000072354071356000000000000000000000000072353073354072388000000000000000000072386073384074386072388073396070397070394070393072395073393073394072397073404070404070404070402072403074402074402073403072405070406070404070404073404073403073404073405072408071408070408070408071408072407072407073408073418072417071417071414072416073416074417073418073420072420072419071417072417074418074420074420073422072421072421072420073420074420074421073421073425072424072424072423072422074422073423074424073428072428072427072427073425073425074426074427072430070430072428072427073428074426074427073428))
 (.node 1 (.leaf 71431071432072430070430072430073428072430072432072433071435070434071433071432072432072432073433071440071441071440071439072439074438074439074440071445071444070443070443071443072443073443072444072448070449071447070447071447072447073447073450072452070453071453071452071451073450073451073452073460072460071459071458073460073458073459073460073478072476071475071474073475073474074477074477073479071480072478072476073478074477074477073478072483071483071482071481072481073481073482073483071487071488071487071486072486074486073487072487000000071494071493071492072492000000072493072494071498071499071498070497071497073495072497072499071502000000000000000000071500072501072501072503000000072504070503000000071502072503072503073505072505000000072505072504000000073505073506000000072520071520071519071518072518074519073519073520073526072526072525070524072523073525072524073525071534070534071534070532072533073531073532072534071542070541071542070541072541073541073542072542072552070554070552070552072550074551074551074552072557070556070556070554072555074553074554072556072564071564071563070561072562073562072563073564072567070569071566070566071566072566073566073567073575072574070574071572072572074573074574074574072580071580072579071578072578073578073579073580072588071588071587071584072586073586072587072587072593072593070593070593072591073591073592073593072597071599070598071597072597073597073598073599072602071602070600070600072600073600073601073602072606072605072604072604073604073604072605073606072620071620071619070618073620073620074620073620)
 (.leaf 71626071627071626071625071624072625072625074625072627070629071628071627071626074625073626073627000000000000070631070631072632073632073633072633000000000000000000000000000000072633072634073636000000000000000000000000072639074638073640073641072673071673071672071671072671000000073672074674073103071105072102000000000000000000000000075104073109073109072108072107073107075105074106074107073113072113071112072111072110073111074112073113072121071122072121072118072118075119073120073120072125072125072124071122073123075123074124073124072127072128072127071126073126074126074127074128073131071131072130071128073129074129073130073130072138072138072137072136073136075136074137073138073148071148071145071145073146075145073147074148073159073159072158072157073157074157074158074159073166072168072165072164073164074164074165074166073172072170071170072170073170074168074169074170074182072183071182072181073181074181074182074183073189072189071188072185073187073187074188073188073204072204072203072202073202074202074203074204073208072208072207072206073206075207074207074208073214072214072213072212073212074212074213075215073224072226072223072222073222073223074223075226072231072231072230072229073229074227074230073230072241000000000000000000000000073240074241074242000000000000000000000000073248074248000000000000073341071341073341000000000000000000000000074341000000000000000000072347073347075347000000000000072353000000000000000000000000073353074354075355073354072354000000000000000000074354075355074356073384072386071384071384073382073382074383074384)))
 (.node 2 (.node 1 (.leaf 73389071390000000000000072389073388074388074389074400071399073399071398074397074397074398074401074402073403072403071401073402075401075401074402073416072416073414072412072412075414075415075415073418073418073417072416073416075415074417075417073423072423072422073422073421075422075422074423073425073425073425072423073423074423074426075426073433072433071432071432072432073432073433075435074438073438072437071435073436075436074437075437073443071441073441071440074440074439074440073443072444071445071443071443072443073443073444075445073447072447071447072447074445074445075447074447073452072452072451071451073450074450074451073452073457073457071456071454073455075454075454075456073463072463073462072461073461073461074462074463073466071466072465072464074464074464074465074466073468071470072469071466073466074466074467075470073472072472071472072472072472075470073471074472073481072481073479073478074477075478074478074481073483072483072482072481073481074481074482073483072489072489071489072489073489074489073490073490073495071497071495071495072494074493074494074495072499071499071498071498072497075497073498075499073507000000071507072505000000074507073506000000073522072522071523072520073520074520073522075522073528072528072527072526073526073527074527075528073540073538072537072536073536074536074539074540072545072545072544072543073543074543074544073545073547072547072546072545072545073545075546074549074551072550072549072548073550075549075549074550073561071561071560072559073559074559074560073560073566072566071564072564073564074564074565074566)
 (.leaf 73567072567072566071566072566074567073566074567074573072572072571071570073572075572075572075572073580072580072579072578073578074578075579075581074591071592072589071590073590074590074591074592073596073594072593073592073592075593075593073596073611072613072612072611074611073610074612075612074618073617073617073616073615074617075618075618073621073621072620073620074620075619074620075621073628071628072627071627073626073626073627074630073633073632072632071631073631074631074632075633073638000000000000000000073636074636074637074638073640073639072639000000073638074638074639073639073672072672072671000000000000000000000000074672074677073676073675072673074674074673074674074677000000072678073676073675073674074674074677000000075105073107074105073103075104000000000000000000074108072110073109073108074106075106075107075108074114073114073113073112074112075112075113076114075115073114074115073114074114076114075115076115074117074117072116072115074115075115074116074117074126073126072125073124074124076122074124074124074128072127072127073126074126074124075127075128074135072134074133072133074133075133075134076134073139073140073139072138073138074138074138075140074151073151073150073149073149074149074150074150073172073173073172073171074169075169075170074171073174073175073174073173073172074171074173075175074177072178072178072177073176074176075178074179074191074191073190073189073188074188076190074189074204073204073203073202074202075202075203075204074210073210072210073208074208075208075209075210074213073213073212073211073212075211075212075213))
 (.node 1 (.leaf 74216072217072216073214075215075214075215075216074218073218072217072217074216075216076217076219074220072222072219073218074218076219076221076221074223072223073222072222075222076222076222076224074227073229072227073227075226076227076227074227073237073237073236073235074235075235076236075237074237073239073238073237073237075237075238075239074243073243072241072240074241076239076241075241074248073248072247072245074246075246075247075248075347073347074345073343075344075345000000000000074356073354072353000000074354075354076354076355073358073358074357073354074356076355075355075356000000000000074360072358074359075359075360074360074372000000000000000000000000075370074371075372073377073376072376073374074374075374074376074378074386072388074386073384074384075384075385075386074395072397073394073393074393075393075394075395075401073402074400073398074398074399075399075400074407072407072407073405073405075405075406075407074413074411072410073409075410075411075412075413075415073413072412074411074413075413075414075415075427074426073425074424074426075424076426075426074428073428074427074426075427075426075427075428073432072432072432072430074431076429075430074431073443072443073443074440074440076441074442074442074445074445072444073443073444076444075444076446074448073450073447072447075447075446074447075448074451073451073450072450073450076450075450076453074457073457074456073457075456075455075456076457074460073460073459073458073458075458075459075460074467072468073466072465074465074465075466075467074478073478074477074477075478076477075477076479)
 (.leaf 73483073483073482073481074481075481075482075483074489073489072487073487073487000000074487075489074491072493000000072489073490074491074491075493074495073495073494072494074493074494075494076496073504072503072503072501074502076500074503075504074514073514073513000000074512074513075513000000074520073520073519074519000000074519074520075522074534073534072534073532074532074533074533075534074536073536072535073534074534075534075535075538075549074550073550073547074549076548075548075549074556072557072556074554074554075554075555075556074563072563073562073561073560075559074561074562074569074569074569073567074567074567075568076570074578073578074577073576074576076576075577075578073585073585073584073583074583075581075582076583073587072587072587073586074586076584074586076587074592074591072591073590074590074590074590075592073605073606072605073604074604076602075603074606074608073608073607073606073605074606075607075608074610073610073609073608074608075608075609075610074612074611074611073610074610075610075611076612075616074615074615073614074614076613075615075616075618074618073616073615074617076617076617076618074618073620074618073616075618076617076618076618074632073632073631073628074630075630075631074632000000000000000000000000074642075640000000000000074643000000000000000000000000000000000000075643000000000000000000000000074646075646000000000000000000075105075104000000000000000000000000000000075108074108074107074106075106076106077108076108075113073113074112073111075111077110076112075113076119073120075119074117074117076119077119076119)))))
 (.node 8 (.node 4 (.node 2 (.node 1 (.leaf 75129074129074128074127075127077125075127076129075144075144074143074142075142076142076143076144075158074158074157074156075156076156077156075157074164073163073163074163075163077162075164075164074176073176074176073174075175076173076176077176075180074180074177074176075178076178076179076180074182074182074181074180075180076180076181076182000000000000000000000000000000075197075197000000075216074216075215075215075214077215076215077217076222073223075222074220076221077221076223077223076227073227075226075226076225077226077227077227076232075232074230073230074230075231076232077232075234073233075232074230074231076232077232076234076236075236074235073233075234076234077235076236075241074243074242074241076239077240076242077242075246074246073244073243075244077243077244076244075248074248074247074246075246076244000000000000075340000000000000000000000000000000000000000000075345075344074342074341075343000000000000000000000000075346075344074342076344000000000000000000000000000000000000075347000000000000000000000000075351073353000000000000000000000000000000077352076355074356075355074354075354076354000000000000075356073358074357074356076355000000076357076358074360000000074360074359075359077359076360076361000000000000000000000000075363000000000000000000075372074372074371000000075370076370075371076372075381073382073381074379074380076379076382076383075403074403074402075401075401075402076402076403075408075410074407074406075406075407075408076410075412073410075410075410075408076410076411075412075424074426074423075422076423077422076423077424)
 (.leaf 75428074428074427075427075426076426077427077429075430073432074431074428075428077429076429076430075436075436075435073433075434076432075434075435075448074448074447075447075446076446077449077449075450074450073450074448075448077449076449076452076454075454075454073452076453076452076453076454075461073461074460074459075459076459076460077462075463074463074462073461075461077462076462077464075467074467074466074465074465077465076466076467076470075470075470075470076470076468076469076470076474075473074472073471075473075471076472076473076476075475075475075473076474076473076474076477075483073483074482074481075481077479077482076483000000073487074486074485075485077484077485075486074487073487073487074486000000077485075486076488075494074494074493073493074493076492077494076494076499073498075497074495076496076495076496076497076499075500075499073498076499076497076498076499076500074502075500075499076499076498076499076500075506074506073505073504075504076504076505075505000000073512000000000000075511076511076512000000075516000000000000074514000000076514000000076516074520074519000000074519074519076517075519000000075522075522073522074520075522076520076523075524074533074532074531075530075530075531075532076534075535073536074534073534074533075534076534075537074538074539074536073536075535075537075537076539074543074542073543074542075542077542076543076544075548075546073545074544075544076544076545076546075556074556074555074554075554076554077555076556074561074562073560074560074559077559075560076562074567074567074566074565075565076565076566075567))
 (.node 1 (.leaf 75582074584074583075581075580076580077581076582076587075587073587073587074586076587076588076589075595075593075593075592076593076593075594077593075601073601074600074599074598075599075600075601074601074600073601074600074600075600075601075601076617074617075616074615075615077613076616077616075622074622075621074620075620076620076621076624075627073627073626074625075625077625076626076627074632074632074631074630075630076628076631076632075639074639074638074637075637076637076638076639075643074643000000000000000000000000000000076643000000000000000000074646075646076646000000000000075673074673074672000000000000000000000000076673000000000000074677074674075676000000000000000000076106075106000000000000000000000000077105078106076108075108075107075106076106078106078108078110075113075113075112075111077110078110076111076112076115075115076114075113075113076112076113077115077119076119074117074116076118078117077117078119077123075123076121076119076119078120077120078121075131075131074129075129076129077129077130077131077134076134075134075133076133077133077134077135075139075140074138074138076138078137078138078139076151074150074150074149076149077149078150078151075152074152075152074150076151078151078152078153076156075156076154076154077154077154077155077156076161076160075160074158076159077159077160076160076173075175074173074171076171078172078173078173076178075178074176074175076176077176077177078177076180075180074179075178076178078177076179077180076188074188075187075186076186077186076187076188076192075192074189076190077189077190077191077192)
 (.leaf 76194075194075193075192076192077192076193076193075197000000075196074195075195076195077196077197076206075206075205075204076204077204077205077206076208075208075207075206076206077206077207077208076215075215075214075213077214077213077214078217076217076217075216075215076215078217078217078218076221076221076219076217076217078218077220078221077226076225076224076222077223077222078224078224077227076227076225076224077225078224078224078226075231074230076229074227077228078227077230078230076236076236075235075234076234078233077235078235077359075359075356075355076357078356078357077359076374075374074374075372076372076372077373077374076376074378074376075374076374077374077375076378076379074380074379075377075378077379076378077379075383074383075381074380076382077382077383076383075388075387075386075385076385076385077386076387075389074389075387075386076386077386076387076388076393075393074393076391076391076392077392077393075397075396075395075394075395077394076396076397075415075416075415075414075414076413076414076416076418075418075417075416075415076416077417077418077420076419076419075418076418077418077419077420077442074442076441074439077440078440077440077443076460075460075459075458076458076458077461077462076462074464075461075460076460077462078462077462077477076477076476076475076474077474077475077476077479075481076479075477076477077477077478077479075489074489075489074487076488077488076489078489076500076500076499076499076498076498077499077500076505075505075504074503076503077501077502076504000000000000000000075511076511077511077512077513)))
 (.node 2 (.node 1 (.leaf 76517074519075516075515000000077515000000077517076520075522074520074519075519077518000000077520075529075528075527074527076526076527077527076528075530075529075528075527076527077527076528076529075534074533074533075531075532076531076533076534076541074540074539074538076539077539077540077541076543074542075542074540076541077541077542076543076554075554075553075552077553077552077553077554076556075556075555075554076554077554077555077556076564074563074562074561076562078560077563078563075568075568074567075568076568077568077569076569076577075577076576075575076575077575078577078577076580075580075579075578075579077578077579077580076586076584076583075582076582077584077585076585076597074597075596075595077593076594076595076596075597075598074597075596076594076595076596077598075607075608075607074606076606078606078607077608076611075611075610075609076609078608077610077611076613076613076612075611076611077611078611078611077616076617076617075616076616078615078615077616076621075621075620075619076619077619077620078623076628075630075627075626076626076626078627077630077634076633074634075633075632077633077634078635076639075639075638075637076637077637077638076639076643075643000000000000000000000000000000000000076673075673075672000000000000000000000000000000077105000000000000000000000000000000000000000000076111076112077110076108078110000000000000079110077117076119076118076115077115079116079117078117077120076120076119077119078119078118078119078120077131075131076130076129077129079128077130078131077135077134076134076133077133078133078134079135)
 (.leaf 78137076138077136000000078136078136078137078138076145000000075145076144077144078144078145078146077156076156076155077154077154078154078155078156076160076161076160076159077159079157079160077160076166075165075165075164077165078163078166077166076168075169076167076166077166078166078167077168077170075171075169075169076168077168077169079170077197075197075196075195076195077195077196078197077230077229077228077227078227079227079228079229077240077240077238077238078236079237079238079238000000077244077243077242000000000000000000000000000000077352000000000000000000000000079351077351000000076354077352000000000000079351077351000000077353000000076354077352000000077351000000000000000000000000000000076361077361000000000000000000077369076369076368076367077367077368077368078371077375075375076374076373077373077373078374079376076378075379075378076376076378079376077378077379077382076382076379075379076378077379077380077382076383075383076383076382077382077382078383077383076384076384076383075383076383077383077384077385076390076390076389075389076388078388077390079391077397075397075397076395076396078395077397077397076400076401075400075397077397077397077399079401076410076411076410075408076409077407077409077411077419076419076418075417077417077417078418078419077431076431076430076429078429079430079430078431077433075434076432076431077431078431079433079433078439077438076438075436077437078437078438078439078443077443077442076440077440079441079441079443078448077449076446076445077447078445078446078449078451076452076449077449078449079448077450079451))
 (.node 1 (.leaf 77453076453076452077451077451078451079452078453077457075458076456076455078455079456077457079458078462077462076460076459077461079460079461079462077479077479076478076477077477077477078478078481000000075483076483077482077482078482077483077483077485075486077485077484077483079485079485079486078489075489076489076488077488079487079488078488077490076492075489075489078489078488078489078490077496076496076495076494077494077495078495079497076509075509076508076507077507078505077508077508077518075519076517076516000000078516078517078518077520076520000000075519077518078518078519000000077523075525075524076523076522077522077523079523076528075529076527076526076527078526077528077528077541076541075539076539077539078537078540077541076548076547076546076545077547079545079546078547078560075560077559077557077557077558077559079560077565076565076564076563077563078563079563078565077565075567076566076565077565078565079566078567076569075568076569076568077568079567079568078570077573076571076570076569077571078571078572077573077575076575075575076575076574077574078574078575078587076588076587076586076585077586078587079587076591076591076590076589077589078589078590078591076600075600075599075597077598078598077599079598077600075601075601075600076600079598079599078600077603076603075604076601076603079601078602078603077610075609076609075607077608079608079609079610078611076612076611075609077610079610079610079610077617076617077616077616078615078615078616078617077620076620076619076618078618078618078619079621078624077625077625076624077624078622078623078624)
 (.leaf 77637076637077635077634078635078635078636077636000000000000075640076640077640079639078639000000000000000000076646076643000000000000077645078647000000078106077105000000000000000000078105079106078116078116077115076113078114079114080115079116079128077129078128077125077126080126078127080128077130077130077129078128077126078127080128079128078133077133078132077131078131080130078132079133078149077149078147076146077146079147079148000000079173078173078172077170079170079170079171079172077195076195076193076193078193079191079194079195078210077210077209077208078208078208080209080211079219077220078218078217079217080217080218080219079232077233078231078230079230000000000000000000000000078357078356076354000000000000000000000000000000077359078357078356000000000000000000000000077384077383076383077383078383080381078383079385078386077386076385076384077385079386079387079388078408076407077405076404078406079404079405079408077420077420077419077418078418079418078419079420078422077422078421077420079421080422080422080423078426077426077425077424079425079426080425080426078431077431077430078429079430079429080430080432078437077437078435077433079433079433080435080435078439078439077438077437078437080435079438079439078446078448077447078445079444080444080446079446079455078454077453076452079452079452079453080456079456078455078454077453078453079453080456079457078464077464077463077462079462080463080464079464078466076466077465077464078464079464080465079466078475077475077474077473078473078473079474079477077483076483077482077479078481080480079480078482))))
 (.node 4 (.node 2 (.node 1 (.leaf 78490077490077489078489078488079488080489079490078505077507076505076504077503079503080504079505077510076509076509076507077508079506078508078509078514000000077513077512078512079510079513078513078526076527076525076525078524079524079525079526077532076531076531076529078531079531079532079533078533076534076533076531077532079533078532079533078537077539077536077535078535079535078536079537077541077542077541077540078540080540079541079542077559077558077557077556078558080557079557079560078560078560078560077558077559079560080561078562079563078563077563078560078560078562079563079564078567077565076565077565078565080565080565079567079568077569077568077565078567079567079568078569078589077589078587076587078587079587078588080589078593076594077592077591078591078591079592079595077599077599077598076596078597079597079598078598078600077600077599076600079598079598079599079600078603077603076603076603079601079601079602079605079608077608078607078606078606079606080607080608078619077619078618077617078617080617079618080619078625077625078624078624078623079623079624079625077629078627076626077625078625079625080626080627077632077633076631076631078631079629079630079633079639077640076639077638078638079636079639080639000000000000000000000000078647079647000000000000079106000000000000000000000000000000000000000000000000000000000000000000079106000000079108000000080110079110000000000000000000000000000000000000080115078115078114079113080113000000000000081114079119078119078118078117079117081119081119081120080123079122078121078120080120081121081122081124)
 (.leaf 78127077126077126079126080125081124081125080128080135079135078134078133079133080133080134080135079142078142078141078140079140079140079141079142078144078145078144078143000000079143080144080145079148078148077146078146079146080146079147079147078150078151078150078149000000079148080148079149079151078153078152078151078150079149080152081152080157079157078156078155079155080155081155081156079162079162077160079160080159080160080161080162078163078162077162079162079162080162080163080164079188078188077187078186079186080184079187079187079189078189078188077187078187079187079187080189078200077200078200077198078198079197079199080201080215079215079214077213080213081213081214081215080216079216079215079214080214081214081215081215080217079217079216079215080215081215081215081217080219078221079219079218080218080217081220081220000000079226079225079224080223081224000000000000000000079229079228079227000000000000000000000000000000079230079229079228000000000000000000000000000000079233079232079231000000000000000000000000000000079235079234079233000000000000000000000000000000079238079237079236000000000000000000000000079244000000000000000000000000000000000000080246000000077351079351000000000000000000000000000000000000000000000000000000000000000000000000079362078366078368078367078366079366080364081365080366080376079376079376078374078374079375080375080376079379077380077379077378079377079377080378080379078383077383078383077382080381080380080381079382079387077385077385077384079385081384080386080387079391077393079391077390079389080389080390081393))
 (.node 1 (.leaf 79396077394077394077393079394080394081394080396079400077399077397077397079396079398079398079399079410077409077407078408079408081408079408079408078410078412077411077409079410079408081410081411078415077413078412077412079413079413080414080415078419078419078418077417079417081416079417080419080422079421079421077420079420080420080421081422080425079426079425079425080425081424081425081427079433079433079433078431080432081433080432080433079440079440078439078438079438081437081437080440079441079441079441078439080441080441080442080443079449077450079448078449079447081448080448081449079453078453079452078451079451081452081453080455080459079459079458077457080458081458081459081460080460079460079459079458080459081459081460081460080461079461079460079459080459081460081460081461080462079462079461079460080460081460081461081463079464078464078463079462080463081463081464081464079466078466077465078464079464081464081466080466078473078472078471077470079470079471079472079472078478077477078478078475079477080477079478081479079480078482078481078478079480080480081480080480080485079485079485077483079484080484081484081484080485079486079485079485080484081484081484081485079488079487079486079485080485081484081485081486080487079488079487079486080485081485081486080487079492077493079491078490079490080490079491080492078495077495077494077493079492080492079494079496000000079497078495077495078495079496080497079497079503077503078502078501078502079501079502080503079510078512078509077510078509080508000000080510000000078516077516000000000000079515079516080518)
 (.leaf 79526078526078525078524079524079524080525080526079537078537077536078535079535079536079536080537000000077542077541077541079541080541081541079543079545079545079544077542000000079543079544079545078549077551078548078547079547080547080548079549079551077552077551077551078549079549079550080551078555078554077553077553079554080552080553081555080557078558079556078554078555081555079557080558079582077584078583078580078581079581081583081584079590078590078589079587078588079588080589080590000000077591078591078590079590080590080591079591079597078597079595078593079595081595080596080597079602078602079601078600079600081600081601080602080607078607078606078603079605080603080606081607079616078616078615079615080615080616080617081618079618078618078617078616079616081618081618081619079625078625078624078623079623079624080624081626079630077632078631077629080629081629080631080632000000000000000000078647079647081646081647000000000000080110000000000000000000081110000000000000081114080115079114080113000000000000000000081113081121080120079119079118081119082120082120081122081125080126080125080123081124082124081124080126080132078132080130079128080128082129082131080132080134079134079133078132080132080132080133080134080146079146078144079144080144081144082145081146080148078149000000079148079147082148082149080148080154080153079151079150080152081152081153081154080155079155080153079151081152081153081154081155079169079168079167078167079166081166080168081170080173079173079172079171081171081171081172082173080176079176079175079174080176082174081175080178)))
 (.node 2 (.node 1 (.leaf 79179078180079177079176080176080178080178080179080181078180078180079177079178080178080179082180080183080182078181078180080181082180080182082183080184079186080183080183081183082183082184082185079191079191079190079189080189082187080190080190079191078190079191079190079190080190080190080191080213078212080211080209080209080210081212081213081214080214080213078212080213081213082214081215000000000000000000079244080246081244081245080248000000000000000000000000000000080248080248000000080364079366079363000000079362081362081363081364080367079369078366078366081365081365081366081367080388079388079387079386080386081384080386081388080390079390079389079388080388081388080390082392080396079396078395079394080394082393082394082394079398079396078395079396080396082394082395081396079402078403079402079401079401080401080401082402079415078415078415078413080414082413081415081416080421078420079420078419080419082418080419081421081427080426080425079426081425081426082427082427080432080430079429080429081428082428081429081430080442080441080441079440080440082439081441082441081453079452079451080450080452081452081453000000080457079457080456079453080455081453081456000000081464080464080463080462081463082462082463000000080467080467079466080465081466081465081466081467081470078470080469080467080467081467082469081469080474079474078473078473079472081472082474082474081479078478079478079477080477080477081478081479080490079490080489079488080488081488081489081490079498079497000000079497080497081497081498080498079500079499078499079497079498080498080499080500)
 (.leaf 79501079500079499078499080498080499080500082501079502079502078502079500079501082501080502080503080506079506079505080504080504081504081505081506080511079513079510078509000000080509080511080511080515078514078513079513080511080511080513080514079515000000078514078513079513080513080514080515080521079519078519078518079518080517080518080519080531079533079532079531079530080529081530081531080534079534079533078532079533081532081533080534080537079537078536079535079536081537081538082539081541079542079541080540080540082540081541082542080548079548079547079546079546081546081547082549081583078582078581079581080581081581081582081583080585080583079582078582081583081583081584080585080592079592078591000000079591080591080591081594080599079599079598078598079598081597081598081599080603079605079602079601081601081601081602081605081609080610080609080608081607082607081609081610080611080611079610080610081610082609081610081611080616080615079615079614080614081612081615081616080621080621079620080619080619081619082620080621080624079624079623078622079623081624082625080624081627080627080626079625081626082626081626082628080633079633079630079629080631081631080632080633080637079639079636079635079636081635081638081639081646079647080645000000000000000000081646000000000000000000000000000000081110000000000000082112082120081119081119081117081116083116081118083119081123081122081121081120082120083120082120083122081135080135080134080133080133081133081134082135081136080136080135080134080134081134082135083135081140079140079138080138081138082138082139082140))
 (.node 1 (.leaf 82141079142079141079140081140082140082141082142082145080145080144079143081143083143083144083145082148079147079147080146081146083145083146082148081158081158081156081155082156083156083157082158082163080163080162080161081161083161083161081162080165079166080165080164081164082164082165081165080170079170079169079168080168082167081169081170081172079172081171081170081170082170082171082172081175079175080176080173082173082173082174082175081193080193079191079191080190081191081192082193080193079193080193079191080191081192082193081193081200079202080201079199082199081198082199082200081208080208080207080206080207083206082207082208082214081213080213080210081212083211083212082214000000000000081224081223000000000000000000000000081245000000080246000000081243081245082246082247000000000000000000000000000000081359081359081360080360000000000000000000000000081359081360081361081368079369080367080366081366082366082367082368081388080388079388080388081388083387081388081388082394081394080394081393082393082393083393082393081398079399079398079398081396083397082397082398081404079405080405079404082403083403083403082404081409079408081408080405081407081407081408081409082411081411081410079408082410082410082411082412082412079413081411081410082410082411082412082413082417081416079415080415081415083415083415083416080423080423081422080421081421083421083421082421081431081433080432080429081429083430082430082431082438081437081436081435082435082436082437082438082438081437081437081436082436082437082438082439082441080443080442080441081441083440083441082441)
 (.leaf 82444081446080445080444081444082442082445083446081467080467080466081466081465082465082466082467081472079472079472079471081470082470083471081472081480080480081479079478081478082478082479082480082483080484081482080480081482082482083483082484081492080492079491080490081490081490082491081492080498079498079497080497081497083495082498083498081508080508079507080506081506081506082507083510080511080510000000080508081508083510081510083511080517080518079516079515080515083515083516081516080521079522079521080521080519082519081521082523081523079524079523079522080521082523082524083525081533080533079533080531081531082533083532083534082539080537079536079536081537082537081538081538081546079545079545079544081544083543082545081545081547080547079546079545000000081546081546082547080553080553080552080551081553082551082554000000081555079557081555080553080553000000082556082557081560080560080559080558081558082558082559081560081572080572079572080572080571082572081571082572081579079577080578080575081577081577083577083577081581080581080578079577081579083577083579082581081583081583079581080581081581082581082582082583081587081586079586080585080585081585082586082587080591079591080591080590081590082588083590082592081602080602081601081600081600082600081602083604082606081607080606080603081605082605083606082607081612080614080611080610081610082610082611082612081616080616080615080614081612082612081614081615082625079624079623080621080621081623082624083623082628081627080626081626082626082627082628082629080633080633080632080631081631082631082632081632)))))))
 (.node 32 (.node 16 (.node 8 (.node 4 (.node 2 (.node 1 (.leaf 81640081640080637079637081638082638082639082640000000000000081647081646000000000000000000000000000000000000000000000000082112000000000000000000082114081114081113000000000000000000000000000000081133080133080132082131082129083131084131083131083137082137081136081135082135083135083136083137083149080148082149082148082148083148083149083150082150081152082150080148083149083150083151083152083156082156081155081154082154083154084154084155082167080168081166081165082165083165084167083167082176080178081175082174082174083174083175083176082178080179080178080178082176083176083177083180082180080182082180080179082178083180083181084182083185082185082184082183083183084184084185084186083186082186082185082184083184084185084186084186083187082187082186082185083185084186084186084187082188080190082187082187083187084187084187084189081194080195080193081193082193082193082194082194081198082199081197080197081197082196082198084200082201080201081200080201082199082200082201084202082208081208080208080207083206083206082208082210083211081212080210081208082208082210082210083212000000000000000000082222000000000000000000082223000000000000000000000000000000000000082223084224082225000000000000000000000000084224083226000000000000000000000000000000082230000000000000000000082248080248081245081244082246082246084246083246081250000000000000080248081249082249084249082251000000000000000000000000081250082251083252000000000000000000000000000000000000084355082355084356082356000000000000000000000000082355084356083356082369080369081368081367082367083367083368082369)
 (.leaf 81372080372081372080369082369082369082371082372082373082373080373080372081372082372083372083375082378081378081377080376081378082378083379083380082393082393082392080390082391083391083392083393082398081398081397081396083397084397084397083398083403082403082402080401082402084402084402084402083403080404082403082402083402084402084402083403082404081404080404082403083403084402083403083404082422081424080423082421083421084422083421083422082428082427082427081426082426083424084426084426082442081444082441082441083441084441083441083442083455081453000000081453082453084453000000084455083463082463082462082461083461084461084462084463082470081470081469082469082468083468083469083470083474082474082474081472081472084472083473083474082475080477082474082474083474083473083474083475082480081480081479081478082478084478083479084479083495082496082494081492081492083494084495084495082498081498081497082496083495084495083497084497083499080499080498081498082498084497084498083498082507080508081506081505083506083505084508084508083525081523081522080521082523083521083524083525082527080526082525081523083525083525083526082527082529080529081528080527082527083527083528084530083534081533081532081531082533084532084533084533081538082539081538081537082537084536082537083539081546000000081546081545082545083545083546082546082551081553000000082550082549083549083550083551082556081554080553000000082554084553082555083554082572080571080571082569081570083568082570084570081574080573081572080572081571082572082573084574082574081574080573081572082572082573084574084575))
 (.node 1 (.leaf 82588081588081587081586082586083586083587083588082594081594080591080591082592083592082593082594082600081600081599081598081599082599083599083600082607082606080606081605082605084605084605084607083608082607082606080606083606084605084607084607083626080624082625081624082624084624084624083626082634081634081633081632081632084633083633082636082638081638081635081634082634082636084636082638082640081640081639081638082638082638084638000000000000000000000000000000000000085111083113000000083116083116083115082114000000000000084115084116084120083120083119081118084119085119085119084119084123083123083122082120083120085121083121084122083132081134081133083131084131085131084131083132083144083144083143082142083142084142084143084144083158082158083157083156084155084156084157085157083162082164081162083161000000084162084163085163083170082170081170081169083168084168083169084170084184083183083182082180084182084182084183084184082195081195081194081193082194083194083195083195082196081196081195081194082194083195083195083196082196081197081196081195082195083195083196084198083203081205081203082201084202084201084202084203000000083228083227082225000000083226084228000000000000082230083228083227000000084228000000000000083242083242000000000000000000000000000000000000083246082248082247082246082246000000000000000000000000000000000000082252083252000000000000000000083351000000000000000000000000000000000000000000083356082356000000000000082355000000084355084356083360081361081360081359083360085358084359084360083368082368082367082366083366083366084367083368)
 (.leaf 83372082372081372081370082371085370084371085373082380082381082378081378083379084377084378083380083385082385081384082383083383083383083383083384084397083397083396083395084396084396084397084398083398082398082397083397084397084398085398085400084402082402083400082398083398085400085400085400083412082412082411082410083410084408084411085412083422082422082421083421084422084422085423085423083424082426083424082422083422085423085424085425084432083432082431082430082431084430083431084432083433082435083432082431082431083431084432083433083442082442082441083441084441085440084441084442083447082447083446083446084445084445084446084447083452083452083451082450083450084450085451085452084456083456083455083455084455085455085456085457084457083457083456083455084456085456085457085457084458083458083457083456084456085457085457085458084459083459083458083457084457085457085458085459084460000000083459083458084458085458085459085460083465082465082464000000084464085464085465085465083471083471082470082469083469084469085471084471083475082475083474083474083473084473083475083475083481082481082480082479083479085478085478084481084482083483082482082481083481084481084482000000083489081490082488082487083487084487000000084489083491082491081490081490083489084489084490084491084495083495082495081492083494084494085494085495084498083498082498083495083497085495084496084497083503082503082502082501082501083502084502085503084508081506083506082504082505085506084507084508084511083511081510083510083510085508084511085511084511083512083511081510084511084511085511085512)))
 (.node 2 (.node 1 (.leaf 83512083512083512083511084511085511085512085512084517083516083515083515083515084513085515084517083519082519081519081519084518085518085519084519083521082523081521082519083519084519083521083521083526082526083525082524083524083524084525083526083528082528082527081527082527083527083527084528084531083530082529082528083528084528084529084530084536082537083535083534084533084533084534084535082539081540082540081538083539084537085539084541084544083543082543082542083542084542083543084544083551082551082550082549083549084549084550085551083554082556000000082554084553084552084553085555083560081560082559082558082557083558083559083560082564082564082563081561083560083562084563084564083579083577083577081577083577085576084576085578082581082581083579083577083579085578085580085581084584081583082583082582083582085581084583084584082595081595081595082594082594083594084595083595082597082599082598081595082596084595084596083597084602081602082600082599083599084599083601085602084605083606082605083604083604084604084605085606083612082612082611082610084610084610084611085612082615081615081614082612083612085612084613083614083615082615081615081614082613084613083614085615083621082621082620083619084617085618084620085621084116083116083115000000000000000000085115085118084137083137083136083135084135085135085136085137084151083151083150083149083148084149084149085151084162000000084160082158084160085158085161085162084168083168083167084167084166085166085167085170084170083170083169083168084168085170085171085172084173082174083172082172083172085173086173086174)
 (.leaf 85190084190084189084189085189086190085189085190085200084200082198082196084198086198086199086199084209082210082210082208085208086208085208086209084213084212083212082210084209086209084211085213000000000000083220083219084219000000000000085219083226083226084224082223085223085224086224086225000000000000000000000000083226084227085228086228000000084246082246084245000000000000000000000000000000082251084249082249000000000000000000000000000000084355084353083351000000000000000000000000085358083360084358083356084356085356085357085358085361084361083360084359084359085359085360085361084367083367083366083365083366085365084367084367084371082372082371082369085370086370086370085371083383083383082381082380083380084381085382085383083390083391083390083389084389085389085390086391084408083410083407083406084406085406085407085408085413083413083412083411084411085411086412086413084422084422083421083420084420086419086421086422085429083430084428084426084428086427085427085428085437084437084436082435085435000000000000000000084441083441083440082439084439000000085438085439084447083447083446084445084445085445085446085447085452083452083451083450084450085450086451086452085457084456084456084455085455086455086456086457085461084461084460084459085459086459086460000000085465000000084464084463085463000000000000000000084469083469083468083467084467085467086468085469084473083473084472083471084471086471085472086474085478084479083479084478084478085478086477085478000000084482084482083481084481085481086481085483000000083488083487083486083486084487084487084488))
 (.node 1 (.leaf 84491083491082491083489084489084489085490085491085495084495084495083494084494085492085493086495084499083499083498084498084497085497085498085499084502082502082501083500085501085500085501086503085508084508084508083505084507086507086508086509084513083515083512084511085512086511086512085513085519082519084518084517085518085518086518086518083526082527083526083525084525084525086525084526083527082527082527083526083526086525084526084527085537082537084536083534084534084534085535085536084537083539082537084536084535085535085536085537083543083543083542082539084541085539086542086542083547083547083546082546083546085545084547000000084553082555084553083551085551085551084552085553083562083560082560083560083560086558084560084562084564082564082563083560083562084562085563084563083568083568082566082565083565084565084566084567085576083577084575084574084573086575086575085577083587083588083587083586083586084585084586085588084592083592083591082590084590085590084591085592084599083599082599082597083597084597085598085599084604083604084602083600083601085602085603086603085606084605084605083604084604086603085605085606084613082613083612084611084611086612085612086613084622084621083621083618084620086619085621085622083629083629083628083627084627085627085628084629084634082636083633084633084632084632086634085636084636082638084636082636084634085636085637000000000000000000084638082638084636000000000000000000086111085111000000000000000000000000000000000000000000000000000000083113085114086112086113085114085115084115000000000000000000086113085114087115)
 (.leaf 86120085119085119084116085118086118086119087119085122084122083121085121086120087121087121087122085124084124084123084122085122087122086123086124085128084128083127085126085126087127086127086128085137084137084136084135085135086133085136085136085142084142084141084140084140085140085140087141085144084144084143084142085142087141086143086144084147083147084147084146085146087146087146087148085157084157084156084155085155086155086156086157086162084163084162084161085161086159086160087163084166083165083165085165086165087164086166085166085167084167084166083165084166085166085166087168085172084170083169084168085170087170087170087171085174083174084173083173086173086172086175086176084183084184084183084182084182085181085182085184085186084186084185084184084183085184085185085186085191085191085190084189085189087191086190087192086198084198083196083195085196087195087196087197085206085206085205084204084205087205086207087208086214085214084214084213085213086213086214087214086215083217085215085214086214087214086216086217085219000000000000084219000000000000086218085221000000000000000000084228085228086228085229086230085375084375085373084371085371085373086374085374085383083383083381083380084381085381086382087382084386083385083385083384085385086383086386086387085390083389084389083388085388086388086389086390085394084394083393083391085392086392087393086394084405083404083404083403086402086402086403085404085408084408083407084406085406085407087407086408086413085413085412084411085411086409087411086413085415085415085414085413086413086413087414086415))))
 (.node 4 (.node 2 (.node 1 (.leaf 86416085415085415085414086413087414086415087415086418085418085418085417085417087416087418086419085431083431084430085430085429087430000000000000000000084437085435083433086434000000000000000000086452085452085451084450085450086450087451087452085454085454084453085452086452087452087453087454086457085457085456085455086455086455087456087457086466085465085465085464000000000000000000000000085467084467085466085465086466000000086466086467085472084472084471085471085470086470087472087472085474083475084473084472085472087472086473086474085483000000084482084481085481087480087481087482086483083485083484000000085483087482087482086483084488000000084487083486084487086486085488000000085501083502085501084499085499086499086500087501086504085503084502083502085501087501086502086503086508084508084507085506085506086506087507087507085513084513085512085512086511086511086512086513086516084517085515084513085513086513086514086515085527083527083527083526084526087526087526086527085539084541085539084537085537087538087538087540084544083544084544083543086542087542085543086545084547084546083546084546084544086546000000085546085553084553084552085551085551085552086552086553085556083558085555085555086554086554087555086558084565084565084564084563085563086563086564086565084570084569083568083568085567087568085569087570086579085580085578084576086578086578086579085580085590084590083588083587085588000000086589086590085594083594083593084592085592086592085593085593084595084595083595084595084594085594085595000000085596084596084595083595084595085595000000085596)
 (.leaf 85599084599083598083597084597085598086598086601086607084607085606084605085605086605086606086607085610084610084609084608085608086608086609086612086615085615083614084613086613086613086614086615000000084636085637084634085636086634000000000000000000086111000000000000000000000000000000000000086113000000085114086111000000000000087112087113087119086120086119085118086118088116087119087120086128085128085127085126087127087126087127087128085136085136085135086132086132086133086134087136086137084138084137085137085136088136086136087137086156085156085155085152086154088154087155087156086160085162085161085158086158087158087159087160085166084166085166086165087164087165086166086166085179085180085179085178086178087176086178088178085181084182084181085180085179088178086180086181085182084182084182084181085180086180086181087183087193086193086193085191087192087193088193087193087199086199086199086198087197087196088197087198087199085201086199086199087198088197087198087199086202084202085201086201087202087202087203087204087205084205086204084202086202087204088205088206087208086208085206085205086207088206087208088208087210086209085208086208087208088208088209088210086214085214085213084211086212088211088213087214086218000000000000086216000000086216086217086220085221085222085219000000086218086220086220087222087224086224085224085223086223088222086223087225086227084227086225086224087224087225088226088226085229086228085228084227086227088226088227088227000000000000000000000000086230087228000000000000085374085376085375085372086374087372087373087374))
 (.node 1 (.leaf 86375084376085376085375085374087373087374088377085381084381084379084377086379088378088378088380087382084384085383085382086382088381088382088383086383085385084384085383087382088382088383088384086388085388084386085386086386087386088386087388086396084395084395085394086394087394088394087396087407085407085406084406086407087407088406087407086409085411085408085407087407087407087408087409087416085417086416085415086415088414088414088416000000086422086422086421086421000000000000000000000000086434086433085431000000000000000000000000000000000000086434086433000000000000000000000000086440085440085439085438085438086438087439087440086447085447085446085445085445087445087446087449087452086452086451085450086450087450087451088452086477086475085474086474086473088474088475088475086486084487086485086485086484088485088486088487086489084489084488084487085488088487086489086489086492085492085491085490087491088492088492087492086496085496085495086495087494088494087495087496086500085500085499085498086498087498088500088500086506085506086504086503086502087502087503087506087507086508086507085506086506087506088507088507087508086509086509086508087507088507088507087508000000086521086520086518086518087518086521087522087523084525086523086522086521086522000000087523087526084526086525084525087523087523087524087525086527085527084527084526087526087525087526087529087532084532084531084529086531087531088531088532085534084534000000085534086534088533088533087534085543085544086542086542087540087540087541088543000000085545084544084544086545088543088544086546)
 (.leaf 86548085548000000084547085546087548087549087550086559084560086558086558087558088559088559088560086565084565084563085563086563087561088562087565000000086575086575086574086574000000088574087576087576085577086575086575000000088574087576088577000000084582084582085581086581088580088580088582087584084584086583084582000000088582087584000000000000085588084586084585087585087584086586086587086591084591085590085589086589087589087590086590085594084594085594085593085593086592086593086594085595084595084594085594085593086593086594086596085596085596084595084595085595086596086596086596086598085598084597085596085596086596088598088599087603085603085602085599086601087601087602087603086609085609085608085607086607087607087608087609086616085618086615086614086614088615088616088617086634085636086634084632086632086633087635000000000000000000000000000000086645000000000000000000087115087115085114086113087113087114088114088115086131085130085130086128087128087129087130087131086132086131085130085130087129087130087131088133086136085137085136085136087136088136087137087137087142087141085140085140087140088140088141088142087157086157086156086155087155088155088156088157087160086160086159086158087158089159088159088162087170087170087168085166087166088166089168088170088171087171087170087170087170088170088171089172087176086178085177086176088174088174089176089177088185085185085184085182087183088183088184089184088191087191086190085189087189088189088190088191088197087198087197087196087195089196089196088197088206086207087205087204088205088205088206089207)))
 (.node 2 (.node 1 (.leaf 88211086212087210087208088209088210088211088212086220086218000000000000086216089216087218088220086223086224086223085221087222088222089222089222087228086230085229086228088227089227089227088230087358085359085357087357000000000000088357088358087365085364085362086361086361088361088362087363086366085365086364085364087365087363087366087366088371087370086369087369088369089369088369088370087374085374085374086374087372088372088375089376087388086388086387086386087386000000000000000000087390086390086389086388087388000000087389088390088397087397086397086396087396088396088397089398087404085404086403086402087402088402087403088404087409086409086408087407087407089408088408088409087413086413087411086409087409088409088410089413088414086415087414086413087413089413088414088415088419087420086419087418088417089417089418000000000000087429087428086426000000000000088427000000000000087430087429087428000000088427000000000000087440086440086439085438086438087438088439088442087446085447085445085444086444088446088447088448087451087451086450086447087449089449088450088451088479087479087478000000088477089478089479089480088480087480087479087478088478089479089480089480088481087481087480087479088479089480089480089480087492086492086491087491088492088492000000088492087503086503086502087501087501088501087502088503088507087507087507086506087506088506088507000000086511086510086509087508087508088508088509087510086512086511086510086509087509088509087510087511086513086512086511086510086511087510087511087512087531086531087530086527087529089528088530088531)
 (.leaf 87535086535085534086535088533088533088534088535087550086548085548085546087548089546089548087549087551085552087550087550000000087550088550087551088557087555086554086553087555000000088556088557087561086563087561086559088560088559089561089562088566085565085565086565087565089565089565088567088568087568087567085565088566088567089567088569088569085569087568087567000000089567088569000000088571087571087570085569088569000000088571000000087573087573087571087570000000088571000000088573088574000000086574087573087573088573088574089574088577086578087576000000087576089575088577000000086586086587087585087584000000088585000000088585086590086591086590086589087589088587087589087590086593085593085593086592086592087592089593089593087603087603086602086601087601088601089602088603088607087607086607086606087606088606088607088608087609086609086608086607087607089609089609089610086625086626086625085624087624088624088625088626087629086629086628085628086628088627088628088629000000000000086634086633087635000000000000000000088112087112000000000000000000000000000000089114088122087122088121087122088120088121090121089124088135086134086133086132088133089131088133088135088156087156087155088154088154089154089155089156089163088163088162087160088162089162090163090163088164086166087165088163089163090163089163090165088166087166086166086166088164090165089167089168089172088171087171087170088170090169089171089172088174088173088172088171089172089172089173090173089174088174088173088172089173089173090173090174088178088178086178087176089177090177089177090180))
 (.node 1 (.leaf 88180086181086180088178088178090180090180090180089186088186088185088185089184089185089186089187088188088187088186088185089186089186089187088188088189087189088187088186089186089187088188088188088200087202087199087198088198089198089199089200088205088205087204087203088203089201089204089205087214086215087215087214087213088213088214089216088222087222086220086220088220089220090220089222000000000000000000087228088230000000000000000000087361086361088360087358088358090359090359089360088362086362086361086361087361089360090361090362088372087372087371088371088370089370089371088372089377088377087374087373088375089375089376089377089379088378088377088377089377089377089378089379089379088378088378088377089378089378089379089380089381088381088380088378089379089380089381089382089383088382088381088380089381089381089382090383088385088384088383088382089383090383089384000000000000087386088384088383089384089384000000000000088392087392088391087390088390000000089391089392089400088400087400087397088399089399089400090400087403086403087402087401089401089401089402088403089418088419088417088416089416089417089418089419088427000000000000000000000000000000089426089429087437087437087436000000088435089435088436088437088439087439086438087437087437088437090438089439087443086443087443087440088442089440089441088443088443086444086443087443087442089441088443089445089452088452087451087450088450089450089451089452000000000000000000088456000000000000000000000000088465000000000000000000000000000000000000089465088467087467087466000000088465089465089466089467)
 (.leaf 88475088475088475088474000000089473088475089477089479088478088477088475088475089477089478089479088489086489086489088487088487088487089488089489088496087496087495088494088494089494089495090497088501087501088500088500089499090499090500090501088503087503087502087501088501090501090502090503000000088507088507087506088506090505089507089508087519087518087517087516087516088516089517088518087521087522086521087518087519088518088519088520088521086522087522086521088519088519088520090523088524087524087523000000087523090523088524090525088530087530087529087526088528090527090528089530000000088531087531087530088530089530088531089530088539087539087538087537088537090537090539090540000000088543087541087540088542090541088543088543088545086546088544088543088543088543088544089545088550087550000000087550087549089548089549090552088556088556087555086553088554090552090553089556089561088561088560088559088558000000089559000000089563088562087561088561089561000000000000089562089574088574000000087573088573000000089574000000089580088579088578088577000000089578000000089580089581088580088580088579089580089580000000089580089582087584088582088580089581089580089581089582088585086586087584000000088585088585000000089585088587087589086587086586088585089585089586088587088601087601088599088598088597088597088600089601089602087602087601088599088598088600089601089602089605088604088604087603088603090603089604089605088608088607087607087606088606089606088607089608088621088621087620087619088619088619089622089623088631088631088630087629088629089631088630089633)))))
 (.node 8 (.node 4 (.node 2 (.node 1 (.leaf 88124087125088125088122089124090124090125090126089151087149087149087148088149089148089149089151089153087152088152087149089151089151090152090153089155088155088154087152089153090153091154090155090163089163089163088162089162090162090163091163090168089168088166087166089167091166090168090169089173089173089172088171089171090171089172090173090177089177089176088174089174091175091175090176090195089194089194088193089193091193090194091195089201088203088200088199089199090199090200090203089206088206088205088204089204091203091204091205088215088215087214087214088214090213089215091216000000088227089226089225089225090225000000000000000000089227088227089226090226000000000000000000089232000000000000000000000000000000000000000000000000000000000000000000089235000000000000000000089360087361088359088358090359089358090359090360089364087366087363088362090362091362090363090364089368087366087366087366089364090364090365089366090369089369087368087366089368089366091369091369089402088402089401089400090401090402090403090404089415088415088414089413090412090413090414090415089426000000000000000000000000000000000000000000000000000000000000088427089429000000000000000000000000000000000000000000000000000000089463089464089473000000089472087471089471089472089472090473089479089479089478088475089477090477090478090479089486088486088485088484089484090484090485090486089490088492088489088488089488090488089489090490088507088507000000088507089507090505089508089508089513087514087512087511089511090511090512089513089517088517087516087515089515089516089516090517)
 (.leaf 89536088536088535088534089534090534090535000000089546089546088545088544088544000000090545091547089549087550087549089548000000091547090548091550088558088558088557088556089556090554091555090556089559088559088558000000089559000000090560090561000000089565089563089562000000091562091563089564000000089565089565089563089562091563089564090566089565088567089565089565000000089564090566090567000000088573000000088571089571090571090572000000089577088577089575089574000000000000090576000000000000088579000000088577089577000000000000090579089586000000088585000000000000090584000000091587089592087592087590087589089590090590090591090592088596088596000000088596088596089594089596089597088597088597088596000000088596089596089597091598090603088603089602088601089601091600091602091603089606088606089605088604089604090604090605090606088617088617088616088615088613089613090614089615089628088628088627087627089626089627090627090628089633088631088630088629089631089631090632000000000000000000089634088631089633000000000000000000000000000000000000089634000000000000000000000000090114089114088114089114089114090113091113091114090121090121088121088119090119091119092121090121090126088124088124089124090124092123091125090125090132089130089129089128090130091128091131090132090134088135088135088133089132092133092134092135090137088139088137088137089136091135092136092138090141088141088140088139090137092138090139091141090143088142089142088141090141091141090142090143089148088147088147088144090146091144091147090147090157089157089156089155090155091155090156091157))
 (.node 1 (.leaf 91163090163090163089162090162092161091163092164091166089167090165089163090163092164091166092166090173089173089172089171090171091171090172090172090184089184090182090180091182091182091183090184090187088188088188089187089187090186091186091187091193089193088191088191090191092189092191091193090203089201089200089199090199090199090201090203091204089205089204089201090203090203091204091205091217090216088215089216089215092215091215091218090220089220090218090216091217091218091219092220000000000000090226089225090225000000000000000000089358000000000000000000000000000000000000090357090365088366089364089363090363091363091364092365090371089371089370090369090369091369091372092371089377089377089376089375090375091375090376000000090383090383089382089381089380092380090381090382090384089384090383089382089382090381090382090384089396089396089395089394090392091392090394090396091408090406090406090405091405092405092406092407090412090412090410090410091410092410092411091412090414089414090412090412090412091412091413091414000000000000089419089418090418000000000000000000089439089439090438088437090437091437090439090439090447088447088445089445090445090443091446091447090449089449090448088447090447091447090448091449090464000000000000000000089463092463091465091466089469089468089467089466089467090468090469090470089469089469089468089467089468090469090470090470089472089471089470089469089469090470090470090471090474088475089473089472089472092474092474091476090488089488088487089486090486091486091487091488090492089492000000089490090490091490090491091492)
 (.leaf 89495089495089494089493089494091493090495090496090505089507090505090503090503090503090504091505089509089509089508088507089508091507090509090510089510088510089509089508090508090509090510090511089516089515088514089513089513091513092515090515090517089517088516089515089516090515092517092518000000090523088520088519090521092519092521092522089530089530088531089530090528090529090530090531090537090537089536089535090535090536090536091537000000090540090539090537090537091537091538090540000000088543090541090540000000090540090540090541000000088543088543090541090540090540090541090542090543088543088543088543000000090541090542090545090545089545088544088543090543090545090545091547090548089548000000089546091547000000092549092549090554089556090553090552090552092552092554000000090556088558000000089556090554000000091555092557091562000000089559000000090560092559092560092561000000089568089565000000090566092565090567090567090571089571090569090568090567091567091570000000000000000000089572089571090571000000091572000000090576000000000000089574090574091574091575091576000000089578089577000000090576091576092577092578000000000000089580000000090579092578092578000000090580089580000000089580000000092578000000091580090584000000088585089582090582000000092584092585090592089592089591089590090590091588090591091592089594088596089595000000089593091592090594090595089596088596088596089595090593090594090595092596091602089602089601088600090600092600091601091602089615088617089616088613089613090614090615090617090619089619088617088617089615090617091618090619)))
 (.node 2 (.node 1 (.leaf 89621089622088619088619089619091618090620092621089624089625088624089623090623092623091624090624000000000000089633088630090632000000000000000000091111000000000000000000000000000000000000092111091115090117090114090113091113091113092114092117091119090119089119090117091117093118093118093121091128090130089128091127091126092126092127092128090132089132090132089130091131093129093131092133091135089136090134089134092134092135093135092135090143090143089142090141091141093141093141092143090151089151089149089148090147091149092150093151091155090155091154090153091153093152092154091155091159091159090158090157091157092157092158092159091177090177090176091175092177092177093177092177091188091188090187090186091186092186092187093188091197089198090196091195091195092195092196093199091210089211089211090210090209092208092209093212000000091222091221091220092220000000000000000000000000090225091223091222000000000000000000000000000000000000091231000000091230000000000000000000000000000000000000091231000000000000000000000000091364090364090363091362091362091362092363092364091366089366090365090364091364092364093366093366092372091372090371089371091372092370092371092374000000089377089375090375091375000000000000000000091390090392000000000000000000000000000000000000091392090392089393090392091390000000092391093393091396090398089396089396090396093395091396092398091402090402090401090400091400092400092401092402091412090412091411091410092410092410092411092412091437090437089436089435000000000000000000000000090442089442090440089439090439093439091441091443)
 (.leaf 91447090447089445090445090443091445092446092447091451090451090450090449091449092449092450092451090466090467090464089464091465092463092466092467090470089469089469089468090469093468091469091470091478090478090477090474091476093475092477091478091493089494090492090491090491091491091492092493000000090498090497090496090497093496091498091499090503090503090502090501090501092501092502091503091507089508089508090505091505092505091506092507092519090521091519090517092518092517092518092519091525090525000000090525090524092523092524092525090530089530090528090527091529092527091529091531090531089532089530089530090530091531091532091533090540000000000000090537091537091538091539091540090540090540000000000000091538091539091540091541090541000000090540000000090540091540091541091541092550090552091550090548092549092550000000092550091567090567000000090567090567092565091567000000091572090572090571090568091570092568091571091571000000000000090572090571000000091571091571091572091576090576000000090574091574092574093575092576091580090580000000000000092578092578092581000000092584090583090582000000091583092583092584000000091588090590091587091587000000091587093589093589091596089597089596089594090595092596092597093598092600090600091598089597091596093598092599092600091626090624089624090624091624093623092623091624090628089627089626090624091626091624091626091627091628090628090627089627090628091627092627092630000000000000090632089631091631000000000000000000091644000000090643000000000000093643092643092644000000000000000000000000091644092644091646091648))
 (.node 1 (.leaf 91648093648000000092114091114091113090113092112092112093113093114093118091117090117091115092117000000093118000000092123090121092121091119093121000000093122000000091125091125092123090121092123000000092123093125092135092134092133090132092133094131094132094134092138090139092138092136092136092136093137093138093151090151091150090147091149092149093150093151092171091171091170092169092169094167094169094171091171090172090172091171092171094171094171094173092177092177091176091175092175094174094176093177092187091187091186090186091186092186093186093187092191092189091188091187092187093187094189094189091193091193092191092189092191094189093192092192092196091196091195092195093195094195093195094196092203090203090201090199092201093201092202092202092209090210090209090209092207093207093208094211092215090213090213090213092213094212093212094214000000092220092220091219092219000000000000000000000000091230092228000000000000000000000000000000000000000000000000000000000000094344092345000000091360091359090358090357092357092357093358092359092374092372092371091372092370000000000000000000000000090376091375092372092374000000000000000000092382090384090382090381092380093380094382094382000000000000000000000000092386094384093387000000092391090391091390000000000000000000000000000000091396090396090396090394093395000000093394092395092402091402090400091400092400092398092400092401000000000000000000090415092417000000000000000000092438090439091437000000000000000000000000000000091445090443090443090442091443094442092443092443)
 (.leaf 92448090448091447091446092446092446092447092448093463092463092462000000000000000000000000000000092463091465092463092462000000000000000000093463093468090468090466091466092466094464094465093468091470090470090470090470091469093468094471092470093475092474092474090471092473092473092474093475091484091484090483090482091482092482092483092484091485091485091484090483091483092483092484092485091491090491091490091489091489092490092491092492092505091505090504090503091503093503092505093507092508090509091507091506091506092507092507093508091513091513090511090510092511093509092512092512091513091513090513091513091513092512092513092514092527091529090527091525092525093525093526093527091533090531090531090530091531092531092531092533091534090533090533090531091533092533092534092535091535090535090533090533091533092534092535093536093536090536090535090533091534092535093536094537092546000000091547090545000000094545094546094546000000092550092549092549092549093549092550093551092552092552092551092550092550092550093551094553000000000000092554092552092552094553094554092555000000092558092557091555092555092555093558094559092562000000091563092561092560093562000000093562000000092565092564000000092562093562093565000000092568091570091567090567091567094568094568000000092576091576091575091574092574093574093575000000092578092578092577091576092576000000093575092578000000091580000000092578092578093578092580093582000000092584000000091583092583093583000000093583000000092586092585092584000000093583094585000000092592091592090592091592091592093590093593000000))))
 (.node 4 (.node 2 (.node 1 (.leaf 92604091604091603091602092602093602093603092604093607092608092607092606093607093607094607094607091611090611090611091610092608092609092610092611091612090612090611090611091610092610092611092611092621090620091618090619092619093619094619093619091622092623092621090620092621093619094620093623092627091627090628090627091626094626094627000000000000000000091631091628092630000000000000000000092644091644090644000000093643093642092643093644093111092111000000000000000000000000000000094111093114092114091113092112092112093113095113095116093118093118093118091117093118094116000000000000000000092123093122093121000000000000095121093122093131093129092128092127092128093127094128094129094131092133093131093129093131094129094130094131093143092143093141093141094140095139094140094143092147091147092147091144093146094146094147094148093152093152093151092150093150095150093150095152092155092156091155092154092154093154094155094156093160092160092159092158093158094158094159094160093162093161092161092160093160094160094161094162094167093166093165093164094165094165094166094167094167092169093167093166094167094167095167095168094176092176092175093174094174095173095175095176094182091183093182093180094181095181094181095183093197093199092196092195093195095195095197095198093201092201093199093199093197095198094200094201093208092208092207092206092206093207095208095209093212091213092213093212093212094212095212094212093218093216093216093215094214094214094217094218000000000000092219093216093218094218000000000000093342000000000000000000000000000000000000094342)
 (.leaf 92345093346095345094346093347000000000000000000000000095345094346095348093358092358092357000000092357095356094357095358092362091362091361091360092359093361095362093362093365092363091362091362092362093362093363094365000000093366092364092363093365094365094366000000000000093369093368093366000000000000000000000000093380092380000000000000000000000000000000000000094384092386093384092382094382095383095385095385000000000000000000000000093387094387000000000000000000093395093393092391000000000000000000000000093397091398092398091396092395000000095398095398092400092401092400091398093397095398093399094401093403091402092402092401092400094401095401093401093404092406091405092402092403094404093403095405093411092411092410092409092408093409095409093411093411091412092412092411093411093411094412095413000000091415091414091413093414095413094415000000000000093439092438000000000000000000000000000000092478091478091478092477093477093477093477093478092480091480091479091478092478093478093479093480092481091481091480091479092479093479093480093481092484091484091483091482092482093482093484095485092488091487091486091485092485095485093487093488092488091488091487091486092486093487093488093489092491091491091489091488092488093489093490093492093498091499091498093496093496093496095498094498092507091506092505091504092505093506093506093507093518092518092517092516093518094516093518094520093528091529092527092526093526094528095529094528094537091537093536091535093536094536094537094538094540091540091539091538093539000000094538094539))
 (.node 1 (.leaf 93551000000092550092549093549094547095548095550094559092558000000092558093558095557095558000000093562092562092561092560093562095561095562095562000000092565000000092565093565095564094566000000093569091571092568000000094568094569094570095570000000092576093575092574093574095573095573093575093578092578000000092578092578094576094579000000000000092584092583000000093582094582000000093583000000093589093589091587000000093587093588000000093590091592093589093589000000000000000000000000093595093593092592091592093593094591094592093594093596092596093593092592000000094592093594093596094607093607093607092606093606095606095606095607092610091610092608093607094607095607094608093609093616091618092617092614093616094614094615094618093624091624092623093623000000000000000000000000093644092644092643093643093642000000094643094646000000000000093648091648094646000000000000000000094116093118000000093114095116096115095115095116095121093122000000093118000000096119094120000000093124093125092123000000093122095121094123094124094136092136093135094134094134096135096136095136094140093142094140093138094140096140096140096140093143093143092143093143094143096143095144095145094171094171094169094167095168096167096168096171095175094174094174094173095171096173095174096175094178094177093177094176095176096176095177096178094190093192094189094189094188095188095189094190093207092206092206092205094206095206096207096207095212094212093212094211095209096209094211096212094342093342000000000000000000000000000000095342093346092345094344093342094342095342095343095344)
 (.leaf 94346000000000000092345093346095344095347095348095355000000000000000000094353095351094354094354094357092357092357000000095356096357096357096358000000000000093366093365094365095365095366000000095383094382094382093380000000000000000000000000000000000000000000093387094387095385095388000000093401093403092401092400094401095399095400096403095405093404093403092403094404096403095403096406094406093408092407093404095405096406096406095408095413093414093411092411094412096412095411096413000000000000000000093415094415095415000000000000094442092443094442000000000000000000000000000000094446092448092447092446095444095444095445096448094451093451093448092448094449096448096449096451094453092452093452093451094451096451094452094453093453093454092452093452093451094452094453094453000000000000000000092454094455094453095456000000000000094464093463000000000000000000000000095464094465094465094464093463000000000000095464096466095473092473092470094471095471095471095472095473093482092482092481092480093480095479094481094482093482092482092482092481093481094481094482094483093484092483092482092482093482094482094483095485093490092490092488092488093488096488094489096490093493092493092492092491093492094492094493094493094499092501093498094497095498095497095498095499093503092502092502092501094502096500094502094503093506092505093503092502093503094503094504094504094516093518092516092515095515095514095515095518094522094521092520093518094520095518094520096522094524093524092524093524093523096523096524096525095529093527093526093525094527096526096527096528)))
 (.node 2 (.node 1 (.leaf 94530092531092531093528094528095530095531095532094532092534092533092531094530095532095533095534094537094537093536092535094535096534095536095537094542094541094540094539094538094539094539094541000000094542094541094540094539094539094541094542000000094544094543094542000000094542094543094544094547093549094546094546094545000000095546095547094554094553093551092550093551095550094552094553094555094554094553093551093551094552094553094554094566094568000000000000094566000000095565095566094570000000094568094568094566095566096568095570095573093574094572094572094572095572000000095572094581092580093578092578094579094579094579095581000000093583093582092580094581095581000000094582094585093583000000093583000000094582094583094585093587000000000000094585000000094585094586094587093588000000000000000000093586094586094587095589000000093590093589000000000000094589094590095592094592000000093593093590000000095592095593096593093600093600093599093598094598095598094599094599093602093602093601093600093600094599094600095602095605092605092604093603094603096602095604096605094608092609094607094607095607095606095607095608094613092611092611092610093609094611095612094612094618093616092616093616094614095614094616095618094620094619093619093616094618095618094619094619000000094627094626093624000000000000000000000000000000000000094627094626000000000000000000000000094643092643093642000000000000000000000000000000094647094645093644092643094643000000000000000000095113095113093113094111094111096111097112096113095121093122095121000000094120000000096122000000)
 (.leaf 94128093127093127094125095125095126096126095127094146094146093143093143095144000000096143096146095149094149094148094147094146095146095147096149095151093150095150094149095149096149095150095150095154093154093152095152096152096152096153096154096159094159094158094157095157096157096158096159095162094162094161094160095160096160097161096162095164094164094163094162095162096162097163096164096178094178094177095176096176096176096177097177096180095181095180095179096179097178097179096180095185094185095183094181095181097182097183095185095189094189094188093187094187096187096188097189094203094204094201093201094201097200096201095202095203093204094204094201096201096201095202097205096207093206094206093204095203097205095205096207096209095209095209095208095207097208097210097210000000000000000000094218095218000000000000000000096348095348094346095345095347097346097347096347096350095351095350095348095348096348097349096350095351094353095351095350096350097349096350096351096359095358094357095356096357096358097359096360096362093363093362095362096361097360096361097364000000000000094366094365095365097364000000000000000000000000000000000000095379000000000000000000096384095385095383000000000000000000000000000000000000000000000000000000095388097387095389096390000000000000000000000000000000095389096390000000096398093399095398095398000000000000000000096398095403093403094404093401096403096403097404097404096406093407095405093403095403097404096404097406095410095409093409094406095408097408095408095409000000000000000000094415095415097414096416000000))
 (.node 1 (.leaf 95456096456096457000000095464000000000000000000000000000000000000096466094469094468093468094468096467097468095468095469095471095471094468093468094468095468095469096471095473095473095472095471095471096471095472095472095477093478093477093477095475096475096476096477094495093494093493093492094493095493095493095495095499094499094498095498095497097497097498096499096508093508093507093506095507096505096506096507094511094510093509093509095510096508096511097511095518094520093518094516095518096518096519097520096537094538094537094536095536096534096535096538094539094539094538000000094538000000096538095539094541094542094539094538094539096538095539095540000000094545094544000000094544095545095545095546095550093551095550095548095548096548096549096550000000095561095560000000095560096560096561095561000000094566095564095562095562096564097564097565095566094566000000094566000000097565097566097567095576093575095573095573095572095572095574095575094576093575093575095573095573095574095575097576094585000000094585093583094583095582095584095585094586093586000000094585094585095584095585097587094590000000000000093588095589097588000000096589095598094598093597093596095596097595095597096598095604094604094603093602095602096602097602097603096605095606095605094604095604097603097603097604095608094608095607095607095606096606096607096608095614093613094613094612095612097611096611097612095614094614093613093613095614097612096613095614094619094619094618094615094616097616095617095618096117096119095116095115000000098115097116097117)
 (.leaf 94120096119096119096117097117097118000000097122094123095121000000096122000000000000096123096123094124094123095121000000000000096123098124095127094128095126095125095126098126096127098128097131094131094130094128096130098128097131097132097135096135096134094133097133097134000000097134097140096140096140095137096139096139096139098140000000095144096143096140097140097140096142098143096143095145095144096143096141096142098143098143096159096159095158095157096157097157097158098159097169096168096167096167097168097168098168098169097173096173096172096171096171098170097172097173097175096175095174096173097173097173097174098175096188095188094187095186095187097186098187097190097210096209095208095207097208097207098209098209097212096212094211096209097210098209096211098212097215096214096213096212097212098212000000000000096342095342000000000000000000000000000000097342096354095356094354094354096352096352098353097356097360096360096359096358097359097359097360097361097364096362096361096361097360098361000000000000000000000000000000000000096390097388096391097392000000000000000000000000000000096391097392000000096402095400095399096398096398097398097399096400097404096403096403095400096402096400097403097404096404096406095403096403097404097404097405098405096413095411096412095411096411098410098410098412000000000000000000000000096416097414000000000000000000000000000000000000000000096431096432000000097453094453094452096451097451098451097452098453095472095473095472095471096471097471097472000000096483095485094483094482096481096481097482097483))))))
 (.node 16 (.node 8 (.node 4 (.node 2 (.node 1 (.leaf 96490094489096488096487096486096487098488098489096490094492096490094489096490098489098489098492095496094496094495094495095495096495096496096496096501094502096500095499096499098499098501098502097504094504094504094503096504098502098503098504097511094511094511095511096511097509097510097511096512095512094511094511097511097510097511097512096514095514095513095512096512097512097513097516096519096518095518095515096517097517097518097519096524096523096523096522097521097522097523097524096528096527096526096525097525097526097527097528096535095537095536096534096533098535098535097537096550095550095549095548096548097548097549098551095555094554094553094552096553098552098553097555096558095558095557095556096556097556097557096557095561000000000000095560096560096560096561096561096564095562000000000000095561096561096562097564097565000000095563095562096564097564000000000000097569095570096568095566097567098568098568098568095581000000095581094579096580097578096580097582096589094590094589095589097588000000097588097589096591095593095592094590096589097589098591098593097600094599094599095598096598096598097599097600096608095608095607095606096606097606097607097608096611094612095612094611097610098611097610098611097118000000096117000000097116097116000000098118098126095126097125096123098124098123098124098125097133097132097131095130097131000000098132000000096137095137096135097135097134097135097135097136096139096139095137096135097135097135097136097137097144096146096143000000098143098142098143099144097146095147095146096146097144099144099145097146)
 (.leaf 98150095150096149095147097146097146097148099150097153096153096152095150097151099150099151098153098170096171097169097168098168099169099169099170097174096174097173096172097172099171099172098174097186095187095186095185097184098184099186098186097191097189096188096187098187098187098188097189097201096201097200097200098200098199098200097203097205097205095202096201097201097203099204097205000000000000097216097215000000000000000000000000096350096350097349096348096348098348097350097351096351096351096350097349096350097350097351099352096358096358096357096354097356099354098355097356000000000000097364097364000000000000000000000000000000097387097385000000000000000000000000000000097388096390095389097387000000000000000000000000000000000000000000000000096391098389097391098393097405097404097404096403097403000000000000099404098409095409095408097408098407000000000000000000097414096416097414097412098412000000000000000000000000000000000000000000000000097421097422097424097425000000000000000000096424097424097424097427097429000000000000000000097425097427098428098429000000000000000000000000000000097433097434097435000000000000000000000000000000097434097435000000096446096447096446096443097443098443097445098447098453097453096452097451098451098451098452098453097457096457096456097455097453099455099455099456000000000000000000096457097457099456099458098459000000095472095472096471097471098469098472098473096474096474000000095473097474000000099474099474096478096477096476096475097475099476097476097477096480096479096478096477096478097477097479097480))
 (.node 1 (.leaf 96480095480096479096478096479097479097480097481097484095485096483096482097482097483097483098484098497097497097497095496096496098495097496098497097518096518096517096514097516098516098517097518097523096523097521097521098520099521098522098523097537000000096538096535097537098537098538098539098542097543097542095540098541099541098541098542098543095545097543097542098542098541098542099544097544095545095545097543098542098542099544099545097549096549096548096547097547099548099549099549097557096557096556095555097555099554099556099556096560096560000000096558096557097557097558098560000000097566097565097564000000098565098566098567098568097567097566097565000000098566098567098568098568097568097567097566000000098567098568000000000000097570097569097568098568000000098568098571097571095572097571097570000000098571000000098571097578096580097577097577098577098578098579098580096583095582095582095581097582099582099582098582000000097588097587097587097587000000098588098589097589096589000000097588000000098589098590099590096601096601097600095598097599099598098600099600098603097603097603097602098603000000000000000000097608096608096607096606097606099608099608099609000000000000000000095618097619000000000000000000097112097112096111000000000000000000098111098112099115098115098114097112097112098112099115100115098118097118097117097116097116100117099117000000099129098128098128096127098126098127098128000000097135097135097134000000097134099133098135098136099151097152097151098150099150099150099151099152099158097158097157097156098156099156099157099158)
 (.leaf 99166097167097166097165098165099165100166100166099171097172098170098169099169100169100170100172098176097176098175097174098174100173100174099176099179098179097178097177098177100179100179099179098182097182097181098180098180099180099181099184098184097184097183097182098182099184100185100185097189097191097190098187098187100187098188098189098193096195096194096192099193100191100193100193099198098199098197096196098197100196099196100198000000098212096211098209098211100209000000000000098342097342000000000000000000000000000000099342097346097346097345097344097345099344098346100346098348096348097347097346097346100346100348099348098353098353096352096351099352100352100352099353098355096357097356098353098353099353099354100356097360097361097360097359098359099359099360000000098377000000000000000000000000000000099376099377098389096391097388097387000000000000000000000000000000000000000000000000098393099393000000000000098400096400097399097398098398000000098399099400000000098410098410098409000000000000000000000000000000000000000000000000000000099436099437098438098440000000000000000000000000098438099441098442098449097449097446096446098447099447099448100449098451098451097450097449098449100449099448000000000000000000000000000000098459099459000000000000097468000000000000000000098467099465098467098468097468097468000000000000097468098467098468099470098469097471097468000000097468098468099470000000000000097474000000097472098472100471098473098473097483097482096481096480097481098481098482098482098486096487098486097484098484099484000000099486)))
 (.node 2 (.node 1 (.leaf 98490098492098489098489098488100489099489099490098494098494098493098492098490099490099491100492099500098499097498098497098497098497099498099499098507097507096507098505098505098506099506098507098513097511097510097509098511100511100512100512098528097528097527097526098526099526099527099528099551098552098551097549099549099549099550099551099554097555098553098552099551099551099552099555098566000000000000097564098564099564099565000000000000098586098584096583098582100582099583098585000000097587098586098584098583099583098585100586098588097588097587098586000000098585100586098588098590097588000000097588098588098588099589099590098593098593098591097589099590099591100592100593098596098595097595098594099593100593100594100595000000098602096601097600098600099600000000000000000000098603098603098602000000000000000000000000098612096613098611097610098610100611100611099612098616097614096614096613098612099612098614100615000000098617097615097614098616100615000000000000000000097619098617097615097616000000000000000000000000000000000000000000000000098643000000000000098112097112097111000000000000000000000000099112099117000000097116098115099115101116101116100117000000000000099129098127098128000000000000099130099133097134098132000000098132099132099132101134099138097136097135097135098135101135099136099136099140099139097137097136099138099136101139100140098143098143098142099141100141099142099143101143099145099145099144098143098143101143100144100145099147097148097146099145099145100145100146100149100166098166098165097164099164100164101165100166)
 (.leaf 100169099169099169099168099168099168101169101170100172099172099171099170100170101170100172100173100173098174099172099171100172100172100173101173100177099177099177098176099176100176100177101178099181097182098180099179099179099180100180100181100185098184097184098182099184101182100185101184100193098193097193099193100191101191101194101194100196098197099195098193100193101194101196101196099201097203098200098199098199099200099200100203099206098206097205099204099204101204101204101205100209099210098209099208100207101207101207000000100343099343098342000000000000100341101343101343099344097345099343098342099342101343101343100344099348098348097348097346100346100346100347100348100352099352097351097350099351100349100350100351000000097360097360098359099359100359000000000000099377098377000000000000000000000000100376101379000000099393098393097391099392000000100393000000099400098400097399098398000000000000000000100400099405099404000000000000099403101402100404100405099417000000000000000000000000099416099416100417099423097424097424097422099421100423099422100423099432097433098433098432099430099430100431101432099437098437000000000000099435100435101436100437098442098443098440000000099441100439100440100441099446097445098443097443099444099444100445101445099450098452098451097449099448101450101450101452099455099455098454098453099453101453100454099455000000000000098459099458100457101458000000000000099465098467000000000000000000000000000000000000100471098472098469097468099470101468101469100470099474099474099474000000098473100472100473100474))
 (.node 1 (.leaf 99479097480097479097477099477099477100478100479099487000000098486000000000000100485101487100487098496097496098495000000098495100494099496099497098497098497097496098495098496099496099497099498099503098503098502098501099501099502099503101503099506098506098505098504098505100504100505100508099514098516098515098514099514100514100515100516099519099518097518098517099517100517100518100519099525097525098524098523099523100523100524100525099541099541098540098539099539100539100540099540099556099556099554098552099552099553099555099556098562000000098562097560099561099561099562099563099565098565098564000000098562099563099564099565100568000000098568098567099567000000100568000000098571000000098571098568099570101569100571000000000000097576098576097574098574100573099575099576098577098578097576098576000000099575099576099576099583098583098582099582100582101582100582101585099600098600099598099596100597101598000000000000099604097605000000000000000000000000100603000000100608099608099608099607099607000000000000000000099612098612098611098610100611100610101611100612099640000000000000000000000000000000100639100640100118000000099117100117101116101116102117100120100122100121100121000000100118100120101121100121099125098125100124100122100122000000100124100125000000000000098128098127000000100127100128102129099130098132000000000000000000102129100130101132099152099153099152099151099150100150100151102153100156099156099155098153100154101154100155101156100162099162099161099160099160100160101161100162100181099181099180099179099180101179102181102181)
 (.leaf 101188100187100187099185101185102185102186102187101191100191100191098189101190102190101190102192101204099204099201098200099200100202100203101204100341000000000000000000000000000000000000102341100358100357100356099354101355101356101357101358100359099359100357100356101357101357101358101359100376099376000000000000000000000000000000101378000000000000000000099393100393000000101394000000100400099400098399000000000000000000000000000000000000000000099405099404100404100404100404000000100412000000000000000000000000000000000000000000099416000000000000000000100415101413101414100416100421098420099420099417100417100417100419100420100422099420098420099420100418100419100420101422100424100424099423099422099422100423100423102426100431098431099430098431100429101429102430101431100435099435099434098433100433102435101436101437100441098442098442099441100439102439101440102441100445099447099446099445100445101443101444102446101450099448100449099448100448102446101449101450100456099456099455099454100454101454100455100455100466098467099465000000000000000000000000000000100476099476000000099474100474101474101475101476100490099490099489100489100488101488101489101490100505098506098505099503101503101503101504000000100510100509098507099506100508100508102509101510100513100512100512100511101511101511101512101513100525099525099524099523100523100523100524100525099542099541000000099541099540100540100541100542099543099542099541000000099541100541100542100543099544099543099542099541099542100542100543100544099545099544099543099542099543100543100544100545))))
 (.node 4 (.node 2 (.node 1 (.leaf 99546099545099544099543099544100544100545102546101569099570100568000000100568101568000000000000099573099574098571098571000000100571100572100573101591099591099590099589100589101589102589101591101595100595100594100593101594101594102595000000100603000000000000000000000000000000000000000000100612099612100611100611100610102611101611101612000000000000100615098614000000000000000000000000100640099640099639000000000000000000101639100640100122000000100122100121101121101121102122101122100127000000099125000000100124103124101125101126100127000000000000099125100125101125101126103127102139100140101139099136101138103138102139103140100150099150100150100149101149103148103149103150101156100156099155100154101154102154103155102156102158100158099157100156101156102156102157102158101163101163100162100161101161102161102162102163101178101178100177100176101176102176102177102178102184101182100181100180102181103180103183103183102185101185101184100185102184103184103184102185101190101189101188101186102186102186102187103188102190101190101189101188102187102187103188102189100200099200100200101197101197103197101199101200100202099200099200100200100200101199101200101202101204101204100203099200100202101202102203101204000000000000000000101211000000000000000000000000101346100346100345100344102346103345102345102346101356101355101354101353101352102352101353101356101357101357101355101354101353101353101356103356000000000000101379100376101378000000000000000000000000000000000000101379000000000000000000000000000000000000000000000000101394000000000000000000)
 (.leaf 100404100404101402100400000000000000103402102402101414099415100415100412000000000000102413102414101416099416099416099415101414102414102415102416100423099422100423100422101422102422000000101423101429100429100428099428101427101427102428102429101440100440100439100438102439102438102439102440101454100454101453101452102451102452101453102454000000000000101458100457101457102457000000000000100472100472100471100470100471101472101472101473101478100478099477100476101476102476101477102478101484099484100483100482101482101483101483102484101493100493100492099491102492102491102492101493101498099499099498099497101496102496103497103498101504100504101503099503101502103502102503103504100508100508100505100504101504103504101506101506101512100512101511100510101510102510101511101511100556099556099555099553100553102552101554101554102564099565099564099563101563102561102564000000101567000000100566099565102564000000101565101567100571100571101569000000000000101568101568102569101574099575100573099573100573101573101574101574000000101578099576099576101577102577000000103579102581101582101580101580101578103579103580103581102585100587100586101585101585103583102586103586101586099588100587100586100585102586103586102588101591101591099589100589101589102589102590102591101593101592101591101591101591102591102592102593000000101598101596101595000000000000000000000000101612100612101611100610102611102610102611103612101639100639000000000000000000000000000000102639000000000000101642100640100640103642103642000000103116102115102115102114000000000000000000000000))
 (.node 1 (.leaf 103116102116102115102115103113000000000000000000102118100120102117101116102116103116103117104118101122100122100121101121101121103119102121000000103130100130102129100128103128000000104129104130102136101134101133102133000000102133102134102135103148101149102147100145103145103145104148103149103155100155101154102153103152103153103154103155102158102158100157101156102156104156103157103158103170101171101170101169102169104169103170103171102175102174101174101173102173103173103174103175103204101205101204100203102203102203103204103205103207102207000000102207103207000000000000000000102343102343101342102341102341000000103342104344102349101349101348102347102347102347104349104350102352101352102351102351101350104350103351103352000000000000000000100404102405000000000000000000102417100417101416100416102415102416102416104417000000101423101422100420102421103419000000103421102426102426100423100423101423000000102424102425000000100426102426100423102423102424102425102426102432102432101431102430102430104431104432103434103437101437101436102435102435104433102435102436102446102446102446101444000000103444102445103446102451102451101450101449102449104448103450104450101455100455100455101454102454103452103453102455000000000000101458101457102457102455000000000000102469101469101468101467000000000000103468104470102496101496101495100494103495104495104496104496102501101501102500102500102499104500103500103501102503101503101502101501102501103501103502103503101511101511101510102509102509103507000000102509101512101513101512101511101511102509102511104512)
 (.leaf 102515101515101514101513101512104512102513102514101536101536101535101534101534102533102534102535101536100537101536101535101534102534102535102536101537100537100537101536101536102535102536103538102537100538100537100537101536102536103538103539102540100541100540100539000000103540103541000000000000102547102546100545102546102544102546000000102552100553101551101550102550103550102551103552102556100557100557100556101554000000104556104557102564102564101563101560101560102561102562103564102570100571100571000000101568102568103569103572103579000000101578101577102577000000103578103579102582101582102581102581103581104581103581103584102590102589101589101586102588103588103589103590103642100640101639000000000000103638102640000000103117102117102116103116000000103116103116104117103119101121102118102117103117104117104118104119000000000000101122102122102121103122105123105123104125101125103124000000000000105123000000000000000000103128103127101126104126104125000000000000104129103129103128103127000000000000000000000000104131000000103130103129104129000000000000105130102133000000101132000000104131105130103132103133102134101134000000101132102132103132103133103133103137101136102136101134102134103133103135104137103139102139103138101136103137104137105138105138103145103145103145102143102144105144104146104147103159102159102158102157103157104157104158104159103168101168101166101166103166105165105166105168104183103184103183103183104181104183105182104183103192102192102191101191102191104190104191103192000000000000103204101204103204104204105205105206)))
 (.node 2 (.node 1 (.leaf 103207000000103207000000000000000000000000104344102343102342102341000000000000103343105345103346102346102345103345103344105345105346105347103353101353102352102351103351103352103352104353103358103357103356101356103356104356104357103358103414102414102413000000000000000000000000104414103419102421103418102417104417104417000000000000103421000000102422102421103419000000103421105422103428102428101427102426102427000000104427104428102435102436102435102432103434105433104433104436104441102440102439102438103440104440104441104442103444000000102445102442104443105444104443104444103446102446102445000000103444104444104445105447104450102452102451102450103450104450000000104450103468102468000000000000000000000000000000105468103473101473101473101472103471104471104472104473102476102476102475101474102475104474103476103477102477101477102476102475102476103476103477103478102484101483101483101481102481103481103482103483102485102485102484101483102484103483103485103486104497103497102496103495104496105496105496105498102544000000103543103543103543103541103543103544102544102546000000103543000000103543103544103545102546000000102546000000102544103544103545000000103550102550102549102548103548103548000000104550103552102552101551102550103550104550104551104552104556101555101554101554103555104555105555104557102560101560102560103559104559105558104560104561102566101565000000102564103564103564103565103565102568101568101568101567103567103565103567103568102568101568101568101568102568103567103568103569103569102569101568101568102568103568103569103569)
 (.leaf 102577101574101574103575104575104576000000104581103581103580103579104580104580105580105581104584103583102582102581103581105581105583105584104613103612102611102610102611000000000000000000104615103615103614103612104613000000104613104614104616000000103615103614104613104613104614104615103638000000000000000000000000000000000000104638104119103119104118103117104117104117105118106119000000000000104126104125000000000000106126104127000000000000000000104126104125106126104127000000103132102132104131104130000000106130106131106131105138103139103138103137104137106136106136105137104142103142102142103140105141105140105141105142105148104148103145102144104146106144105145105148104150103150103149104148105148105148106148105148103152103152103151103150104150105148105151105152103155104156103155103154103153104154105155105156105165104165103164103163104163106163106163106165103173103174103173103172103171105170104172106173104177102176102176103175103174104175104175105177103178103179103178102176104177105177106178106178104183104181104181104180105181105181106181105181104188104188103187104186105186105186105187105188103192103192103191102191104190106191104192104192103194103194102194103192103192104192104194104194103195102196103194102194103194104194104194104195104201104200104199103197103197104198105200105201104202104201104200104199104198105200105201106202104356103356103353103352103352104353104354105356103358103358103357103356104356105356000000000000104385000000000000000000000000000000000000000000104403000000000000000000000000000000000000106405))
 (.node 1 (.leaf 103421000000103419103418000000104420105421106421104428103428103427102427000000104427105427106429105433103434104432104431105430106431105431105432105436103438102436102435104436106436105435106438104445102445103444103443104443106445105444105445104450103450104448103446105447106448106448104450104454102455103453103452105453105454105455105456000000000000000000000000104458106457000000000000103479103478102477102476103477105476104478104479103479102479103478102477103478104478104479104480103482102482102481102480103480104480104481104482103487103486102485102485103485105484104486104487103489103489103488102488103487104488104489104490104506103506103505103504104504106504105505105506104511102509000000103507104509104509105510104510103517102517102516102514103515104515104516104517103519102519102518102517103517104517104518104519103520102520102519102518103518104518104519104520103521102521102520102519103519104519104520104520103529102530102529102528103527104527104527104528103530102531102530102529103528104527104528104529000000103539103538102536104537000000105538104538104539103541103540103539000000104538104538105539104552103552102551103550104550106551106552000000104557104556000000103555104555105553105554106556105557104557104556000000105555105554106556105558104561102560103560104559105558105559106560106560103567102568103567102566103565106566104566105568104572103572102573103572103572104571104572104572000000000000103576103575104575106574106576104577103578103579103578000000000000104577106577105579104585103587104585104584105584105583106585106587)
 (.leaf 104591103591103590103589104589105589104590104591103596000000103595102593104594105594104595105596000000000000000000000000000000106601104602000000000000000000104616104615104614104614105615105616000000000000102640103638104638104639104640000000105115103116000000000000000000000000000000000000105121105123103122104119106119106119107120106121106124000000105123105123105121106121107124000000105133103133103133103132106131107132105132107134105142104142103142105141105140106142105141106142106144104146105144104142105142106142106143106144105145104147104146105144106144106143106144107146104153103153103152103151105151107151107151106153106163104164104163103162105162107162107163106164106167105168105166105165106166106166107167106168106170105169105168105168106167106168107168107169105170103171103171105169106170107169107169106170106178103178103177104177105177106177107177107178105189103190104188103187105187107188107188106189106202104202104201104198105200106200106201106202105205105205104204104203105203106203107204106205106347105347105346105345000000000000000000000000105351103352104350104349104349106351000000000000000000103358104357104356105356000000000000000000000000000000000000000000000000000000105373105374000000000000000000000000000000105373105374000000000000105386104385000000000000000000000000000000105387000000105386104385000000000000000000000000000000000000000000105390105390000000000000000000106422105422103421000000105421107420000000000000105424105424105422103421106421000000000000000000104425104426104425105424105424000000106423106426)))))
 (.node 8 (.node 4 (.node 2 (.node 1 (.leaf 105427104427000000000000104427107427107427000000105445104445104444104443106445106445107446107446105455103454105453104451105451105451106452106455000000000000000000000000000000106458105460000000105471104471104470104469105469105470106472107473105476103477103476104474104474106474106475106478104489104488103487103487104487105487105488105490105506104506104505104504106504107504106505106506105512104512104511103508105510107509106509106512104515103515103514104513104512105512105513105513104517103517103516103515104515105513105515106517104525103525103524103523104523105523105524105525105531104531103531103530104529106529105531106533000000104537104534104533104534105534105535105536104538103540000000103537105538105536105538105539105545103544103543103541105543106543106544106545106580105580104580103578105579106579106580107580104590104590104589103588105588107587106589105589000000000000000000000000000000105598105599107600105613104613000000000000000000000000000000107613105616000000104615104614104614105615107616107616104640103641104638000000105639107638107639107641106121105121106120106119106119000000107120107121107126000000106124106123107124108123000000000000107127104127106126000000107126000000000000108127107131106130106129000000000000107127000000108130107136106136106135105133107134107133107134107135106137105137106136106136107136107135107136107137105155105155104154104153106153108152107154108155107168106168106167106166107167107167108168108169107174106173104172105170106170108170106172106173107178106178106178105177106177107177108177107177)
 (.leaf 107180105181106179106178107178107177108179108180106185105185104185104183105183106183106184107185106192104192104192106191106190108190107191108192106195104195104194104194107193108193106194106197105198104198104198104195106195106197107198108199106202106202105201105200106200108199107201108201107206000000105206105205106205107205108206000000000000000000106344000000000000000000000000000000106348104348105347106347000000000000000000000000000000105351105350104349106351000000000000000000000000000000000000000000000000106367107368106369000000000000000000000000105374106375107376106377000000000000000000000000105380106380107381000000000000000000000000106405000000000000000000000000107418106417104416104415000000000000000000000000106423104425105424106422000000000000000000000000107427104427104427104425106426000000000000000000000000106430106429105427000000000000000000000000106438106440106438106438107438108437108438108439107441106441106440106440106438108439108440108441106445106445106443106442106441107441108442108445000000000000000000000000000000107460106462106463000000000000000000000000000000106462106463000000000000000000000000000000000000000000106465106466106468105468105467000000106466107466107469108469106475105475104474104474106473107473107474107475107479104479104478105476106478107476107479107480105484104483104482104481105481106482106483106484105484105484104483104482105482106483106484106485105487104487104486105484105484106485106486106487105488104488104487104486105485106486106487107489105502104502104502105500105501106501106502108503))
 (.node 1 (.leaf 106506105506105505106504107504107506107507108508106509104510105510104509106509108508107508108509105512104512105512104510106509108509106511106512105522105523104521104520105521106521106521106522105523104523105523104521105521106521106522106523105526104526104525104524105524106523106525106526105527104527104526104525105525106525106526106526105534104533105531104530105531107530106532108534106540105540105539104538105539107538106539107540106545105545105544105543106543106543107544106544105548104547105547000000105546106545106546106547105549000000105549104547105548106547106548106550106554105554105553000000106552106552107553107554106556105558106556105554106554107554107555107556107564105564106563106562106560107562107563108564107567105568104566106566107565107566107567107568107575106576106574104572106574108574107575108575107578106577104577106576107575108575107577108578107580106580105580105579106579108578107580108581106581105581106580106580107580108581107580108582107586106587106585105583107584108584106586107587106589105589105588106587107586107587107588107589106591104591104590105589106589107589107590106590106594105594104592105592105591106592106593106593105598000000104596105596106596108595108596108597000000104602106601000000107600000000000000000000105615104614105613000000000000108613107613106614000000000000000000000000000000000000106634106636107638104637000000000000000000106636106636107638107121106121107120106119000000107120107120108121107137106137105137107136107135108137107136108137107140106142105140106140108138109138109139109141)
 (.leaf 106144106143106142105141106142107142107143107143108147107147107146106144106144109145109146109146108151107151107151107150108149108150108151109151107156106156105155106154107154109154108155108156106158106158106157106156107156108156108157108158107181106181107180107180108180109179108180108181107191106191106190106189106190109189108190108191106194106194107193106192108192108192108193107194108199106200105198106198107198109198108199109199108202106203106202106201107201108201109202109203106369000000000000000000107368108368109369109369107369000000000000000000106369109369109369109370106375105374105373000000107373108373108374000000106377106378000000000000107376108376107377107377000000000000000000000000107381108381000000000000000000107420107418000000000000000000000000000000000000000000107420107420000000000000000000000000108435106436107434107432108434108434108435000000106452105451107450106448108449108448108449107450107455106455106452105451107453109452108454108455107460000000105460106458108460108460108461109462107466106466000000000000106465109464107466108468107469105470106468106467107469108469000000108469106489105490105488105487106487108486107488107489106491105491105490105490106489107489107490107492106493106492105491105491106491107492107492107493106495105494106493106492106493107493107494107496106497105496105496105494106495107496107497107497107499106499105498106497106498108497107499109500106502105501105501106499107499109500107501109502108508106506106505107504107506109504109506109507106512105513105512106512106511109511108511107512)))
 (.node 2 (.node 1 (.leaf 107530105531106529106528106529000000109529109531000000105538105536105536000000109536107537000000107538105539105538105536000000107537000000108538107540106540105540105539107538108538000000108542106545105546106545106544107544108544108545000000107556106556000000106554107554108556107555107556107561000000106560000000107559108559109560108561107569105571106568105568106569107568107569107569108574106574105571105571107572109571108573109574108578106579107578106577107577108575108578109579106586106586107584107583107582108582109585109586107600105599105598105598108597109597107598000000000000000000107600105599107600000000000000000000107616107616107616105615106614109615109616108616108640107639107638107638107638109637108639000000000000000000000000107641108641108641000000000000108118107120107117106116000000000000000000108118108121107121107120000000107120000000108120109121000000000000108123107121108121109121109124000000108134107134107133108133108132110132110135110135109138108138107137107136107136108137109137109138108151107151108149108147109148109149109150110150109154107154108152108151109151109152109153109154109162108162107161107160108160109160110161110161109168108168107167107166108166109166109167109168109171108170107169108169109170109170109171109172108177107177108176107175108175110175109174109177108181107181107180108180109179109179109180109181108185107185106184106183107184108184110185110185108188106189107187107186107186109186110188110188107194106194108193108192108192109192108194109196108199108199107198106197108197110197110198110198)
 (.leaf 109204108204108202108201109202109202110202109204109206108206107205108204109204109204109205110206000000000000000000000000000000109347108349000000109369106369106369107368108368000000109369000000000000106375106372107373108373110371110373110374107377106377106377107376108376110374110376109378109440108441108440108439109440000000110441110441000000108442107441108441109440110441110442108443109445108445108442107441109442110442108443109445109446108446108446108445109445109445110446110447107456106455107455106453108454109452109455108455108458108457107455106455107456108455108456109458108459108459108457107455107456108456109458110459000000108469107469107466108468109466110468110469108477107479107476107475107476110476110477110478107485106485106484106483108484109484108485108486108511106512106511108509108509108510108510109511107515106516107514107513108515110515110516109515107517106518107516106516107515109515108517109519108521106522106521106521107519109519109522000000000000106525106523106523107523108524110524109526000000106528106526106526108527000000000000109529000000108534108534106532108533000000000000000000109536000000108535108534000000000000109534000000108538107538000000000000107537109538000000109540108544107544106543107540108542109540109543109544000000106545106544107544108544109544109545109546107549106550106548106547108548109548109549110549108551106552106551106550108549110551108551109553108556107554107553106552108554110554110554110555108561107561107560107559108559109559109560108560109575107575108574106572108573109571109574109575))
 (.node 1 (.leaf 109575108575107575108574109574109574109575110576109596108596108595108594108593110593109596110596109597108597108596108595108594109596110596110597107598106598108597108596109596110596110597000000000000000000000000000000000000110628108629108630000000000000000000000000000000108629108630110631108641108641108640107639108639000000000000000000000000000000000000109122109124110124000000110126110139109139109138108137109137109138109138110139110141107142109141109139110139110139110140110141110145109145107143107143109144110142110145110146110146109146109145107143110145110145110146111146109150108150109148109146109146110148000000110150109160108160107159108158109158110158110159111160110178109179109178109177110177111177111178111179108184108184108181108180109180111180109182109183109186107186108185108184110185110184110185111187108191108191108190109189109189111189109191111191109192108192108191108190109190109191111191111194110198109198108197107194109196111196111197111197109347000000000000000000000000000000000000111347000000000000000000000000000000110350109352109353000000000000000000000000000000109352109353109355108359000000000000000000000000109357109357109358109359108359000000000000108359109358109359111360109361108361107360108359109359111360111361111361108365107365108365107362109364110364109365000000109369109369108368108365109367110365110368110369110371109370109370109369000000110370110371110372108380108380109379107377109378111377109379111380000000000000000000000000109382000000000000000000109455108455108454109452109451109451111454109453)
 (.leaf 108456107456107456108455109455109453111454111455110459108459108458107456108456111455109457109458110465109464109463109462110463110463111463110465110465109464109464109463110463111463110465000000109466108468107466109464110465000000111467111468110472109472109471108469109471110471110472000000109474107475107474107473110472110472110473000000109478107479108477107477110477110476110477111479108482107482108482107480109481111480110482109482108486107485107485108485108485109484110484109485109490107492107490107489109488109489111489110490108497107497107496107494109495110493109496110497110502107501109500107499109498110500111501111501110504109503109502109502110502110501111503110503110505109504109503109502110503111503110503111505109515107515107515108515110515110513110514111516109519107519108520107517109519000000000000000000108524107523108521108520109522110520110523000000000000000000108527000000109526109526109526000000109532109531109529000000000000109529109530110532000000108533109531109529109529109530110532110533109534108534000000108534000000109533000000110536109538107537109536108534109534110536110537000000109540108538000000107537109538000000110537110540109540108542000000108538109540110540000000110540109545108545108544000000109543110543111544111544110554108555108554108551109553109553110554000000109556107556107555108556110555110556111557111557109560109560108559107556109556111557109558110560109561107562107561108561108560109560110560111562108566107566108566108565109565110565110566110567109571108573109571107569110570110571110572111573))))
 (.node 4 (.node 2 (.node 1 (.leaf 109581108581109580108581110580110581110582109583109588109587109586109586110586110586110587110588110593109593109593107592109592110592110593110594109612000000000000000000000000000000000000000000109617109616109615108613110615000000000000000000109631000000000000000000108630000000110630110631110635109635109634109633000000000000000000000000110636109637109635109634109633000000000000000000000000108639109637109637110636000000000000000000110120108120000000108118110118000000000000000000110126000000000000109124110124111122111123110125109127109127000000000000000000111123110125112125111132110132110131110130111131111131112131111131110132110132110132110131111131112131111131111132111136110136110135110135110135112134112135112136109138109138109137108137110138112137112138110139110142109144110141109140110140110141110141111142110150109150109149109146110148110148112147112150110156108155108155109154110154111154111155112156111175110175109174109173110173112173112174112174110179109179110178110178111178112177112179111179109183108184108184109181109182112183112183110183111203110202109202110201111200112201112201112201110350000000000000108349110348110348111349111350109359108359108359000000109357110358111359111360000000108365109365109364110364110364110364111366110365109367108365109365109365110364111366111367110370000000109369000000110368111368111369110370111374110374110373110371111372111373000000111373110374110374110374110373110372000000111373111374111377109378110376110374110374111374111375111376000000000000109382108380110381000000000000000000)
 (.leaf 110431108432000000000000000000000000000000110433109433108434109432108432110431110433110433111435110440000000109439108437110438000000110439111440000000110441000000109439109439110439111440110441111446110447110446109445110445112445111446112446111448110448110448110447111447111448112448112449111450110449110448110448111448112448112449112449111454109452109451110451110450111450110452111454110460110460110459109458109457111456110458000000111468110469110468109466111468111468000000111470110471109471110469110468111468000000111470110470110484108486108485109484110482110482111483111484110491108493109490109489111489112491112491112492110493109495108493108493110491112492111492112494110499110499109496108497110497111497111498110498110508108509109507109506111507112507111507111508109511109511108510108510110511111509110512110512000000000000109519108517110518111516111517000000110520109522109519000000000000000000112520000000000000110524108524000000110523111523000000000000109526109526110524108524000000000000000000111526109533000000000000109532110532000000111533111534000000109538000000109534110536000000112536110537110540109540000000109538000000110537110538110538110540109540000000109540110540110538110540111542111544109545109544109543110543111543111544111545110548109548109547109546110546111546111547110548109553109553108551110551111550111551112552112552111557108556110555110554000000110555110556110556110562108564109561109560110560110561110561111562110566109566109565108564110562111562110564110565110571110570110569110569110569112569112570112570))
 (.node 1 (.leaf 111576110576109575109574110574111574111575111576110594110593109593109592110592112592112593112594000000109617109616110615000000000000000000000000110624000000000000000000000000000000000000000000000000110628000000000000110627000000000000000000000000000000110636110635000000000000000000000000111123000000110124111122000000000000000000000000000000111129111128109127111128113128113128000000111131111131111129111128000000113128000000113130111142110142110141110140110141112140113142113143112146111146110146110145111145113145113145112145112156110156110155110154111154112154112155112156111161110161111160110159111159111159112160112161112168109168111167111166112166112167112168112169111171109170111169109168112168112169112170112171112173110173109172109170111171112171112172113172111177111176111176111175112174113174113175113176111180111180110179111179112179113179112179112180112191111191109191111189111189113189112190113192112195111196111194111194111194113193112195113196112198111197111197111196112195113196112197113198110364110364111361111361000000111361111362113364111368110368110365000000111366112366111367111367111373111372110372110371111371112371111372111372000000000000110381111380111380112378000000000000111437111436111436109433111435113434113434112437111456109457111455111454111454113455113455113457111459110461110460109458110458113457112460111461000000111463110463110462110461112460111462111463111467111467000000110465111465112465000000112465111475110475000000110473110475111474111474112475111492109492110491110490112491113491113492112492)
 (.leaf 111494109496110493109492111492112492112493000000110498110499109498110497111497113496111497113497111502111501111501110500111500112500113500112502111509110511110508110507111507113507111509111509111517000000110518111516111515111516000000112517000000000000000000110523111523111523111523111523000000000000109526109526111526113525000000112528110534000000109533110533111533112531113533000000111544111544110543110540111542112540112543112544111552110554109553111550112552112552112553113553112569110569109567110567111567112567112568112569111582110582110581110580111580112580113581113582112588110588110587110586111586112586112587112588112593110593110592111591112591112591113592112593111630110630000000000000000000000000000000000000112125112125110125111123000000000000000000113125113135112135112134111132113134114132113133113134113135112136112135112134113134113133113134113135112140110141110140110139112138113138114140114141112147112147110148112146112145114146114147113149113151112151111151112150112150113150113151114151112154111154112152112151113151114151114152113154112156112156111155111154112154113154113155114156111159111159112157112157113157113157113158113159112162111162111161111160112160113160113161113162113174112174112174112173113172114172114173113175112180111180111179112179113179114178114179114180113183110183112183112183113183114183114183114184113187110186112186112185113184114185114185114187113192112191111190111189113189114191113192114192113199112198112198111197112197114197114198114199113201112201112201112200112200113200113201000000)))
 (.node 2 (.node 1 (.leaf 112344112345000000000000000000000000000000112344112345112346111349110348111347111346112346112347113347112348112350111350111349110348111349112348112350113352000000111355111354110354112355112355112355112356111359111359110358111355000000112356112357112358111359111360111359110358112356112357112358112359111360111361111360111359111359112358112359114360111367111368111367111366112366114365113367114367112371111371110370111369112369114368114370113371112378111380112378111376112376112377112377113378000000000000000000000000000000112381113382000000113434111435110433110433112433114432112433000000111439110439000000111437112437113435112437112438111441111442110441111440111440112440113441112442112460110461111459000000112460114459112460113462000000111466111465000000111463114463112464112465111468000000111468111467112465114467114467112467111471111470110470111470112470114469112471112471112475111475111474110475111474000000114475114475111479111480110478110477112478114476113477114480112482110482111481112481000000112481113481113482112485111485111484111483113484114483114485114486112487111487111486111485112485114486113486113487113492112492112491112491112491114489114491113491112502111502111501111500112500113500113501114501113503111504111503111502112502114501113503114503112520000000112520000000112518112519113519112520112529000000000000000000000000000000112528113529112531111533000000000000112529113529112531112531000000110537112536000000113534113536000000000000112540111542110540110538000000000000113539113540)
 (.leaf 112545111545111544111543112543114542112544112544112547111547110548111547111547112545112547113549112553112552112552111551112551114551114552113553112567111567110565110564111563112564112565112565113571112572112570112570113570113570114570114571112572111574112572112572113571114571113573113574113582111582111581111580112580114579114580113582112587111587111586110584112585114584114585113587113592112592112591112590113590114589113591114591113596111596111595112594113594114594113595113596113125112125112124000000000000000000000000114125114142113143113142112140114141114140114141115144113145113145113143113142113141114141115144115144113151113151112150112147113149114147114150114151114156112156112155112154113154114154115155114156114166112166112165112164113164115164114165114166113171112171112170112169113169114169115170114171114177113177113176113175114175115175115176115177114178113179113178113177114177115177115177115178114189113188112187113187114187115187115187115189114193113193113192112190113192115191115193115194114195112195113193113192114192115193115194115195113347111348112346000000112346115346115346114347114365112366113364113364114364115364115364115365114368112369111367111367113367114367114368114369112372111372111372112371113371114371113372113372113378112378112377112376112377113377113377114378114431113430000000000000000000000000114429115431113435112437113434113434000000113434113434114435112440111440111439111437112437114436113438114440113447000000113446112445113445114445114446114447114451113450113450113449114449114450114451114452))
 (.node 1 (.leaf 113451113451113450113450114450114451114452115453113455113455113455112453114455115454114456115456113457113457113457113455113455115456115457114457114463111463111462112460113462115462115463114464114475111474111474113474113474114474114475115475113477112479112478112475114475115476114476114477113482112482112481000000112481000000114481115482114488113488112487113487113486115487115487115489113499113497111497113496114496115495115498114499113501113500112500113497113499114499114500114501113505113505112504112503113503113503113504115505000000111514111514112514114513113512114513113514113519112519112518112517112517113517113519115519113522111523111523112520112520114520114523000000114526000000113525111523114524000000114524000000112528112528000000112528113528000000000000114528113529112529112528000000000000000000114528000000113536113534000000113533114533000000000000000000000000000000000000113534113536000000000000115537113537113539000000000000000000000000115537115538112545111547111545112545112544113545115545113546114551112551113549112547113549114547114550115551113556113555113554113553114554115553114555115556112562112563112562112561113561115561114562115563113570113570112569112568113568115567115569114570113575113574112572113571113573114571113574115574114579112580113579113578114577114578114579114580114580113581112580113579114578114579114580114581114585112586112585113584114584115583115584115584113589112589112588112587113587114585114588114589000000000000000000111600113600114600114601000000113620000000000000000000000000000000000000114620)
 (.leaf 113623114623000000000000114128113128000000113128113128115126000000116130113136113136113135113134113135116135114136114137000000114147114146114145115146116144116146114147115151114151113151113150114150116149115151116152114154113154114152114151115151116152115151116153114156114156113155113154114154116153115155115156114162113162113161113160114160116159114160114161114171113171113170113169114169115169116169115171115172114172113172113171114171115171116172115173114175113175114173114172115172115173116173116175115179114179114178114178115177116177116179115179114180114180114179114178115178116179115179115182115186114185114185114184115183115183116185115185115193114192113192114191114189115189116191115193115196114197113196114195115195116195116195116197000000113200114199114198115197115198000000000000113343000000000000000000000000000000114342114342114347113347112347112346115346115345115346115347113352113352112350112348114350115350115351116351114354112355112355113352115353116354116354115354114360114360114360112359115358115358116361116362115364114364114362114360114360116362116363116363114367113367114365114364115364116364116365115367113377112377112376112375113375114375114376114377114378113378112377112377113377114377115377115378113382000000113382112381114381115379114382114382000000000000000000000000113382114382114383114384000000000000000000000000113383114383114384114385000000000000000000000000000000114384114385114386000000000000000000000000000000114385114386115388114429000000000000000000000000000000000000115429))))))))
 (.node 64 (.node 32 (.node 16 (.node 8 (.node 4 (.node 2 (.node 1 (.leaf 114432112433114432114431115431116431115431115432114436112437113435113434113434114435115435114436114444112443112442112442114442115442115443115444114461112460114459113457114457115457115458116461115463114463113462112460114461116461116461115463114468114467114467112465114466000000114467114468114474113474113471112471113471114471114472114472115475114475000000113474114474114472116474116475114477113477114476114475115476115475116476115477000000112481112481114480115480116480115481115482115489114488113487113486115487115486116488116489115490114489114488113487115487116488116489115489115493114494114493113491114491116491115492116493115494114495114494114493114492115492116493116494115495114496114495114494115493116493116494115495114501113501113500113499114499115499115500116501113512114513113511113510115510116511116511114512113514000000112513114513113512114512116514114514000000114524113522000000114523114521115524000000114524000000114524113522000000115524000000114524000000113528114526000000114524114524114526000000114528112528000000113528000000000000115529000000000000114533112531112531114532115532000000000000114542112544114542113540115541115540116543116543114547113549112547112545113546115547116547116548115551114551113550113549114547116548114549115551115553114554113553114552115552116552116553116554115561113561112559114559115558116559116560116561114564112565112564113564115563116563114564115566114585113587114585114584115584116584115584115587114590114589113589113588114588115588115589115590114598113598113597113596113595114596115597115598)
 (.leaf 113601113600114600116600115601115602114620113620000000000000000000000000000000115620000000000000000000113623114623115623000000000000115126113128114125000000000000000000000000116126115133113133114132114131114131000000117133116133114138114138113138113136114137115137115138115139000000114141114140113139000000117140115141115142115144115144114141114140114140115141115142116144116144115146115144115144115144116144117145117145115151114151114150114147115149116149000000116149115171114171115170114169115169117168117170117171116183114184115183114180115182117181117182117184116197115196114196115195116195116195116196117197115347114347115346115346115345115345117347117347116351113352114351114350115350116350117351117351115354114354115353115353116354116354117354117355116357115357115356114354115354117355117355116356115358115358115358115357116357116356117359117359115369114369114368114367115367116367117368116369114371114371114370114369115369116369116370115370114375113375113374113373114373115373115374115375115379114381114378113377115377116377116378116379000000000000000000000000115388117387116389116390115400000000000000000000000000000000116399117402000000000000000000000000115406117405117406117407115429114429000000000000000000000000000000116431115432114432114431115431116431117430116433116434115435114435113434113434116434117434116434116435115441113440114440113438115439117438116440116441115443114443114442113440115441116441116442116443115453115453114452114451115451117450116452117452116454114456115454115453116454116454117454117454))
 (.node 1 (.leaf 114466115465114464114463115464116465115465114472113471113471114469115469115469116470115471115477114477114476115476115475117476116476116479115482000000114481115480116480117479117480116482115500114500114499115498116497116498115499115499000000000000000000114523114521115522115523116525115529000000000000000000114526000000115527117528115529000000114528000000115529117528116528115529000000000000000000114532115532116532116533116534116537115537000000000000115536116536116537116538116537115538115537000000000000116537116538000000115547113546115545113545116545117544116546117547115554115556114555115553116554116554117554115554114562115563114562115561116561117561117561116563116567115567115566114564115566117566116567117567116568115569115567115566116566116567117567116569115571115571114570115569116568116569117569117570115574113576115574113574116573116574117574117575114578114579114578114577114577117575116576115577115582114582114581114580115580117579115580115582116584115583115583114582115582115582117583116584115587114585115584115584116584117584115585116587115589114589114588114585115587116587117587117588115593114595114594114593114592115592115593116595000000000000000000114601115601116601000000000000115620114620000000000000000000000000000000000000000000000000000000114623115623000000000000000000116126115126114125000000000000000000000000000000000000116130116130000000116129117127000000000000000000114131116131116130000000000000000000000000116135114136116135115133116133117133118134118136115138115137114137114136116135118136118136116137)
 (.leaf 117140000000114138115137115138116137116139117141000000115155116153115151117153117153117154117155117158115158115157115156116156118156117157117158116164116163116163114161116162117162118163117164117164116165116163116163117162118163117164118165117168115169116168115167116167118166118167118169117176116176116176116175117175118174117176118176115345114344114344114342116342116343116344118345117351116351115351115350116350117350118350118351116354116354116352116351117351118351118351118354117363116363116363116362117362118361118362118363116369115369116368115367116367118367117368117369115373114373114372114371115371116371116372116373116380114382115379115378116378117378118380117380117387114386114385114384116385117385118385117387116399000000000000000000000000000000000000000000117404116404116403116403117402118402117404118404117405115406116404116403117404117404118404118405000000000000000000000000000000118409118409116410000000000000000000000000000000116410116412000000117434116434115432115431116433117431116434118435116435115435114435116434117434118435117434118436116440114439115439114436116438118437000000116440116442115442115441114439116440116440116441117442116461115463116461116461115459117459116460117461115465000000115465114463115464117462116464117466117469114469114468114468116468117466117469117470117474116475116474114472116474117474118475118475117480115481116480115477116479118479118479118481116482115482115481116480117479118479118481117482117484116484115483116483117482117482117483117484115499115499116497115495116497117497116498116499)))
 (.node 2 (.node 1 (.leaf 117504116504116503116502116501118502118503118503117507116507115506116505117505118505118506118507117514114514116514114512116512117512117513118515116520114521114520114518116518116518117519117520116526114524000000115524115523117522116524116526116528000000115529000000115527117528000000117528116534000000000000115532116532000000117531000000000000115539115538116537000000116538116539117541117544116545116543116543000000000000117544116545117549114549116548116547117547117548117549117550116550116552115551114549117549117550118551118551117561116562116561116560117560117560118560118562117569116569116568116567117567118567118568117570116574116573116572116571117572117572118572118573117574116574116573116572117572118572118573118573116576114577114577115574117575117574117577118577117588115589115588115587116587117587118587118588115592114592115592115591115590118589116591116592115593114593114592115592115592116591116592116594116596114596115593114593115593116594116594117596116601115601116600115599115598116599117600117601117127116129116126000000000000000000000000118127118141115141117140115139116139119139117141119141117154000000117153116152117152118150118153117153117159116159117158115156117157119156119157119158117162116162117161116160116160117160118161118162118182117182117181117181118180119180119181119182118188117186117186117184118185119185119185118186118188117187117186117186117185119185118186119188117195116195117193117193118193119192119193119194118197117197116196116195117195119194118196118197117340115341000000000000000000000000000000119341)
 (.leaf 117347117347117347115345118346118347119348118349118351117351117351116350117350118350118351119351118362117363117362117361118360119360119361119362117368117368116367117365118364117366119367118368117375116375115375115374117373117373118374117375117384117382117382116380117380118380119381119382118385117385116385117382117384119382118383118386116388116389117387117387117387118387118388117389117404117404117402117402118402119402119402119402118406117406117405117404118404119404119405119406118407117407117406117405118405119405119406119407118408000000117407117406118406119406119407119408000000000000000000000000000000117415117416117417000000000000000000000000000000117416117417000000000000000000000000000000000000000000117419117420000000000000000000000000000000117419117420117421000000000000000000000000000000000000117425117426000000000000000000000000000000117425117426117427117428000000000000000000000000117427117427118430117431116433117430116431000000117430117430118431116470115469117469115468117469118467117470117470118487117486116485117484117484117484118485119486117494116494116493116492117492119493118493118496116499115499116498116497117497118497117498117498118501117501116501115499117500118500118501119501118505117505117504117504118503118503118504118505116518116518116517116516117518119517119518119518117522115523115522116520117520117521117521118522117531116533116532115529118530118531000000118531116538000000116538116537116535117536117536117537000000000000117542000000117541118541000000119542117544117543000000117542000000000000119542119543))
 (.node 1 (.leaf 117551117553116550117550118551118551118552119553118557117557117556115554118556118554118557119557118560117561117560116559117557118557117559119561117564117566116563117563118563118564119564119565118567117567116567117566117564119565118567119567117579115577116576117575117577118577118578117579118585117584116584117583118582119583119583118585118589115589117588117587118587118588118589119589117602000000116601116600117600117600118601117602118127117127000000000000000000000000000000000000000000000000000000000000118130119128000000000000118150117152116150116149119150000000120150118150117155117155117154117153118153120151120153119155118162117162117161116160117160118160118160120162118169118169118167118166119167119167120167119169117176117176118174118172119173120173120174119174119179118180118178117176119177119178120178000000000000118184118183118182119182000000000000000000118186118188117185118185119185000000000000000000119189118190118189118188119188000000120189120190000000000000118197117196118196118196119197000000118343116344116343116342119341119341118343120345118347118346118345116344118343120345120345120346118351118350117350117347118349120348120349120351119359118359118358118358119357120356119359120359119361118361118360118359119359120359120360120362117370116370116370117369117368118368118369118370118383117385117384117381119381119381119382119383117391000000117390116388117389118389118390118390000000000000000000000000117393118393118394118396119409118409118408118407119407119406119407120409119409118409118409118408119408119407120409120409)
 (.leaf 118415000000000000116412118413119413120414120414117416000000000000000000118415120414119414119415117422116422000000000000117420000000118421118422000000000000000000116422117422118422118423000000118431117431117430000000117430118430119432000000118437000000118437118436118435118436118436119437117443117443117442116441118441120440118442119443117444117444117443117442117442118442119443118444117449116449116448116446117447118447118448118449118450117450116449116448117448118448118449118450117451117451117450116449117449118449118450118450118460116460117459117458117459000000119459119460118462117462117461116460118460119460119461119462118475118475117474117471117471118471119472118473118477118479117476118476119476119477000000119477118485117485117484117483117484119483119484119485118489117489117488118488118487118487119488119489118493117493117492117491117491120491119492119495117498116498117497117494118496120495119497120497118501117501117500116499117498119497118499119501119502118503118502118501119501120501120502120502119507118507118506118505118505120505119506120507118511117511117510117509118509120509120510120511119515118515118515117513119515120514119514120516118523116524117522116522117521119523120523119525117528117528000000117528000000120528118528000000000000000000118530117528117528000000118530118530118534116535000000000000117533118533119533120535117537116538116537116535117536119535118537120538000000000000117541116539118540119540118541119542118544116545116545117544119543119542119543120546119548117549117548117547118547120547119548119549))))
 (.node 4 (.node 2 (.node 1 (.leaf 118557117557118556118554119555120555120556118555119557118557117557118556118554120556118555120558119569117570118568118567119567120567119569120569117597116596116596117596117595118596118596118597117597116599116596116596117596118596118597120599000000117603117602117601118601119601000000000000119128118130118127000000000000000000000000120128120138119138119137118135118136120135121136121138120139119139119138119137119136121136121138121139120140117141119139119138120138121138121139121140119144117143118141119141120141121141121142119142118145117146117145117143119144119142119144119145118146118146117146117146118145119145119146121148000000119150119148118146118146121148000000121150120157119156118156117155119155120155120156120157118160117160119158119157120157121158120157121160119165118165119164118163119163120163120164120165120170119170119170118169119169121168120170000000119174117176119173119173120173000000000000000000000000119180119179119178120178120179120180121181000000119182119181119180000000121181000000000000120191119190119189119189120189000000000000000000120194119193119192119190120191000000000000000000118196118196119194119193120194000000121193120194119359118359119357118355120356121357120358121357119368118368119367117366119366120366120367119368118368117368118368119367120367120367119368119368119383118383119382119381119381120381119382120383118388118388118387118386119386120386120387120388118393117393117392117391118390119391119392119393118394117394117393117392118392119392119393121394119412119410119409119409120409000000120409120410)
 (.leaf 120414119413118413119410119412120410119412120414119418117419000000117417119416119416119417120418118428117427117426117425000000000000119426119427118430117430118430117427118428119427119429121430119432117434118431117430119432120430119432119432118436118435000000118435119435119435119435119437118442117442118441119440120440120440000000119442118444117444117443117442118442119442119443119444118450117451118450117449118449119449119450120451118451118452117451118450118450119450120451119451118453118454118453118452118451119451119452119454119462118462117462118460119460121461121462120462120465119466119464118462119462120462121465120466118467117466117466119466120465120466120467121467119469117470117470118467118467119468119468121470118473118475118472117471118471119472119472119473119482118482118481119479120479120478120479119480118487118487119486118485119485120485119487119488119489118489118488118487118487119488121489121490119497118497118496118493119495121495121495120495119497117498117498118497119497120495120496121497119504118504118503119502120502121502121503120504120512119512118511118510120510120510121511121513119518119518119518119517119516121517121518121520119525118523118522117521119523121521121523120523120526119526119525118523119525120523120526120527119533117534117533118531000000120533120534120535119535117536118534117534119533120535121535121536119542000000118541118540119540121539121540121541120556118554119555119554120554120554121555121556119567118567119565119564120564121564120566120567119580119579117579118578119578121577120577121578))
 (.node 1 (.leaf 120128119128000000000000000000000000000000000000120135118136118135000000000000000000000000122136121141120141120140120139121139121138122140122140121152120151118150120150121151121151121152121153120155119155120153120151121152121153121154120154120164119164119163120162121162122161121163122164120179120178119178120177000000000000000000000000000000120192120191120190000000000000000000000000120340119340000000000000000000000000121339122341120351120351120349120348120347122348122349122350121354120355120354120353121352121353122354121355121357120356120356120355121354121355122355121357121359120359119359120356120358122358122358122359120367120367119366119363120365121363121366120366119370118370118369118368119368120369120370120370119382119382119381119380120380120380120381120382120383119383119382119381120381120381120382120383120388118388119387119386120386121386121387121388119397119397118396118394121394000000120395120395120399000000000000119397119397120395120397120399121408119406119405119404119405121404120406121408120410119412120409120409000000121410121411000000120418119418119417119416119416121416120418122419000000000000000000118423120424121422121425000000119427118428118428119427119426121425120427122429120430119432118430119430119429000000121429121432120439119437118436118436119437120436120437120439119445118446118445118444119444120444120444120445119445118447118446118445119444120444120445120446119449118449118448118447119445120446120447121449000000120457120456119455120455120455000000000000120462119462119461119460121461000000121461121462)
 (.leaf 120485119485119484119483120483120484120485122486121495119495119492120491119492122491120493121495121501120501119501118499120500122499122500122500121509120509120508120507121508121507121508121509121513120512120511120510120510121510121511122512121521119523120521120520121520122520122522122522120526119526119525120523121523121522121523120524120529118530000000118528121528121529121530121531120535119533118533000000120533121533121534121535121539119540120538118537121537121538121539121540120548119548120547120546120546121546121547121548120554120554119553119550119550122551121551120552120562119562120561120560121559122559122560122561121562120562119562120561121561122560122561122562120577119579119578118576121576121575121576122578120594118596118594118593121593121592121593122594120599120599118597118596120597122597120597121599120603000000000000119601119600121599120601121603000000000000000000000000120603121603000000000000000000121129120128000000000000000000000000000000122136121136120135000000000000000000000000123137121145119146119145119144000000122143121145000000121150121150000000121148000000122148122149121149122161121162121161121160122159122160123161122162121163120163121162121161122160123161122162122163122164120164120163121162122161122162122163123163121194120194121193000000000000000000000000122194000000000000119196120194121194122194121196121196121339000000000000000000000000000000122338121339122343121343121342120340122341123340123341122342120345120345121344121344121343122343123345121345122354120354121352121351000000122352123352122354)))
 (.node 2 (.node 1 (.leaf 121363120365120362121361121361122361122362122365120371119371119370119370120370121369121370121371120375119374119373119373120372121372121374121375120375119375119374119373120373121374121375123376120377119377119376119375120375123376121377121378121379119380120378119377120377121378122378121379121388120388120387120386121386123385123385121388120390120391119389119389120388121388121389121390120391119391120391119389120389121389121390121391120391119392119391120391120390121390121391121392121394119393119392119391120391121391121392122394120401119401120399119399120399121399121400121401120403119404119402119402120402121402121403121404121409120409121408119405120406121407121407121408120414000000120414119412121413122413122414121414121416119416119415119415121414121414122415122418000000121421121421120418122419123419121420121422000000000000000000120424121422122422121424000000120436119437119435119435121435122433121436121436121442119442000000120440120439121440122441122442120444119444119443119442121442122442122443122444121465120467120466121465122465123464122466123466000000121470119468119468000000123469121469121469000000121471121470119468000000121469121469123471121471119472121471121470000000121469123471123472121477119477121475119473122474122475123475122477120482119480120479120478121478122478121480123480121497121497120496120495122495123495122496123498122505121505120504121503121503122503122504122505122514121514121513121511121511122511122512123514122518121518121517121516122516123516123518123518122519121520121518121517122517123518123518123519)
 (.leaf 122522121521120520121520122520123521123522123522121551120551119550121550121549123550123551122551122560121561121559121558122558123558123558123560122579121578120577121577121576122578122579122580120582120582121580121578122579122580122581122582121591120591120590119588121589121589121589122591000000000000000000120603121603122603000000000000122131000000122131000000000000000000000000123131121145120145000000121142121143124142122144122144121149121150000000000000122148124147123149122149122150121152121151121150121149122149000000124152123161122160122159122158123159123159124160123161000000122168122166122165123166000000000000000000122194121194000000000000000000000000000000124194122338000000000000000000000000123336122337123338123341122342122341121339121339123339123340123341123349122348122347120345121345124345124347123349123349122349122348122347123347124347123349124349123349122350122349122348123349123349124349123349122352000000122350122349123349124349123349123352122354122354121353000000122352123352123353123354122362121362121361121360122360123360123361123362121366120366121366121363122365123363122366122367121367120367120366121366121366122366122367122367121369120369120367120366121366122367122367122368121369120370120369120367121367122367122368122369121370120370120370120369121369122368122369123371121374120373120372120372121372122372122373124373122378120378120377120376121377123376123377124379123384120382120381120380122382124381124382123384121398120397120395120395122396123396000000122397121399120399120399120397121398122397122398122399))
 (.node 1 (.leaf 121400120399120399120399121398122398122399123401121403120402120402120401121401122401122402122404122415121415121414120414121414122414123414123415123419122419120418121416122418000000123419123420121420121421122419120418123419123419123420123421122422121422120422000000121422122421123421123422122426120427121425000000000000123426000000000000123430121429000000122429123429000000000000000000122433121435121432000000121432122432122432123433121436120436120436121435122433123433122435123437122443120443121442120440122441123441122442122443121448121449120447120446122447124447124447124448122451120451121450121449121448124448122449123451121453121453120451120451122451123451122452122452000000000000000000120455122455123455123456123457123466121465000000122465123464123463123464123465122475122474122473121471123472123471123472124474121478120478120478121477122477124476124476122478123485120484120482122483122483122483122484123485123486122487122486120485123486123486000000123486122487121489122487122486123486000000123486123487123492122491120491121489123490123489123490124492122496121496122495122495123495124495123495123496123499122500122499121497123498124497123498124499123516122516122515122514123514124515124516124517123521122520122519122518123518124519124519124520122525122525120524121523122523123523124525123527123528121529122527122525122525123527124528124528123534121535121534121533122533124531123534124534122536121538121537121536123535123534123535123536122541121541121540121539121538000000122539000000122541121543121542121541122541000000123542124542)
 (.leaf 123555122556122554120552123554124553124553124556123561122561122560122559123558124559124560124562121576121575120574120574122575122575122576122576122586121586120586121586121585122585123585123586122594122594121593121592122592122593123593123594121598121599120597122597123595123595122597123599122603121603120601121599122601123601000000000000123131122131000000000000000000000000000000124131124138121137123137000000000000000000000000000000124140123138121137123137000000000000000000124138123149122149122148000000123147124147124148123149122153121154121153121152124152000000123153124155124157122158123156123156123156000000124157124158123195121196122194000000000000000000124194125196000000000000000000121196124197125197123198000000000000000000000000000000000000000000123335123336124345121345123345122343124344000000124344125346123363122365122362122361123361124361124362125364122373121372121372121371122371123372000000124372123377121378121377123376123375124375123376124379124385123385123384123384123384124384124385124386124386123385123385123384124385124385124386124387123386121388123385123385124385124386124387124388123391121390121389121388123389124389124390000000123393121392121391121390123391000000124390124391122394121394122394121392123393124391123393124395122404121404121403121402122402123403123403123404122412122413121411121410122410123410123411123412123415122415121414121414122414124413124414125416123419123419122418122415123415125416123417124419123423121424122422121422123421123421124422124423000000122426000000000000123426125425124427000000)))))
 (.node 8 (.node 4 (.node 2 (.node 1 (.leaf 123430000000123429000000000000000000000000122432122432123430000000000000000000000000124430122443122443122442122441123441124441123442123443124445122445122444122443122443123443123444124445124447122448122447121446123446124446125447124448123471121469121469123469123469124469124470124471123472122474123472123471124471125471125472125473000000123480121480122478122479125478125480125481123494123493123492123490123490125490125491125494123495122495123493123492124492125491125494124495123496122496123495123495124495125495125496124496123505122505122504122503122504123503124504124505123508122508122507122506122506123507124507123508122510122510122509122508123508123508123510123511123513122511122510122509122510123510123511123513124515123514122512122511123513123513124514124515123523122523122522123522124522125522125524124523124529123529123528123527124528125526125527124528124529123530123529123528124528125527124528125530124531000000123530123529124529124528125530125532123536122536121536123535123534125535124537125537124543121543122541121540123542125541125542125543123547123546123546121544123545124543125545125545124550123550122550123549124548125548125549124549124557123556123555123554124553125554125555125556123566121565123564123563124563125563125564123565123567122567121565123564124564125564123565123567123586122586122585121585122585123585124585124586123591122591121589121589123589124589124590123591123595123595122594122593123593125594124596125596123600121599121598121598122597125596123598123600000000000000124133123131124131124131126133125133)
 (.leaf 125143124142124142123140125141126140125141126143124143122144124142124142125142125141126143126143125152124152000000122149123149124149124150126151123153122153124152124152125152126151126152000000124157123157123156122153124155125153125156125157125165124165123164123163124163125163125164000000123198000000124197123195125196126195125198126198124338123338122337123336123337126337125337125338124343123341123340123339124341125341125342125343124355123357123356124354125354126354126355125355125359124359124359123358124358125358125359126359124362123362123361123360124360126361126362126363123372122371123371122369124370124370124370124372124375123375123374124373124373125373125374125375124381124380124379123377124379125377124379125381124397000000123396122394124395126393125396125397124399122398122397000000124397125397125398125399124410122410124407124407124406124407124408124409124414123414122414122413124412125412125413125416124421123421123420123419124419125417124420124420124423123423123422123421123421125421125422125423000000000000000000000000124427126425000000000000124430122432000000000000000000000000000000000000124434122435123433122432123433125432126434126435124454124454122452122452124452124452124453125454124466123466123465123464123464000000125467125468124471123471123470123469124469125469126470125471124476124476124474123472125473000000125473125474124485123485122484122483124483125483125484125485123486000000123486123485124485125485125486125487124500123500124499123498125498125498125499124502125515124516124515123514124514125514125515125516))
 (.node 1 (.leaf 125522124521124520124519125519126520126521126522125526123527124525123523124523125525125526126526125532124531124531124529125530126530126531125533125538000000123536123535124537125537126537126538124543123545124543124542125542126541125542125545123568122569122568122567123568125566124568125570123572123571122571122570124571126571126571125573124580123580122579122578124578125578125579125580123582123583124581122580123580124580125582124582123585122585122585122584124584125582124584124586123591123591123590123589124589126588125590124590125594123593122593122592123592124592124593125595125596122597123595123594124596126595126596125596000000000000000000123601124601000000000000000000125133000000124132124131124131000000000000126133125144125146124143125143126143126142126143126144125148124148124147125146125144126144126145125147000000123153000000125152126151126152000000125153125153124155123153000000126152000000125153127154125158124158124157000000125156125156125156125157000000125165125164124163125163127162126164126165000000000000000000125165000000126165000000000000125198125197125196124194126195000000000000126196125335123336123335000000125333125333126334126335125338124338124337123337126337126336126337126338125343124343124342124341125341126339126342126343124352124353124352124349125349125349125351126353126359125359125359124358125358126358127359000000126365125365125365125364126364127363126364126365125367125367125367125365126365126365126366126367124383124383124382124381125381126381126382126383125387124387124386124385125385126385125386126387)
 (.leaf 125392123393124391124390124391127391127392126392125398124398124397123395125396126396126397125398125423124423124422123421125421125422126422127423126425124427125425124423125423127423127425126425125432123433125432124430000000000000000000126432125437123438123437123437124436127435125437125437125446124446124445123444125444127443126445126446126448124448125447124446125446126446126447126448125456124456124455124454125454126454126455126456125469124469124466124465125467000000000000000000000000125473125472125471000000000000000000000000125483124483125481125480125479125480127481127482126490125489123489123488124487126487126490127490126491125490125489123489126488126490127490127491126495125495124495125494126493127494126495127495125499124499125498125498126498127498126498126499124502124502123502124500124502126500125502125503125506123507124505124504124505126504127506127506125508123508124507123507125506127506125508126510125510123511123510123508125508126510000000127511125515124515124514123513125513127513126514126515126531125532125530124528126529127530127531127531125537124537125535125534126534127533127535127536126539125539125538125537126537127537127539127539126540125541125539125538126538127539127539127540126541125542125541125541126540127540127541127542126546125545125545124543125545127544126544126545125551124551124550124549125549125549127551127552126555125555125554124552126552127553126553127555126571124572124571123568125570126570127571126572125579124579124578123576125577126577126578125579124582123582124580123580124580125580125581125582)))
 (.node 2 (.node 1 (.leaf 126595124596125594124592124593126594126595126596000000124601123600123598125599126599000000000000125147125148125147125144126144128145126146126147126149124149125148125147126145126146126147128149000000124150124149124149126149128149126149127151000000126152126151124150000000127151126152126152000000000000000000125164126164127164128165000000126339125341125338125337126337126338128339128340000000124343125343125342126342128341128342128342126346125346125345126344126344127344127345128347127354126354125354124352126353128352127354128354127359125359125358125355126357127357127358127359127362126362126361125359127361127361000000127361127363126363126362126361127361000000127361127362127363126364126363126362127362127361127362127363127389125389125388125387126387127387127388127389127392125391124391124390126391127391000000127391126393126393125392125391127392127391127392127393125398125398125397125396126396127396127397127398127415125413125412124412126411126412126413127415125418125417125416000000125416126416126417126417125421124420124420125417125418126417126419128421125422125421124421124420125421128421126421126422126432125432125431000000000000000000000000000000127435126435126434125432126432000000127433127436126442124441124441125440126440128438127441128442127443125444124441124441126442128442128442128444126447125447125446124445126445128444128445127447126452124452124450124450125449127448126450126451126474125474125473000000000000000000000000128476126484125486125485125484126484128482127485128485127494126493126492126491127491127490128492127494)
 (.leaf 126495126494126493126492127492128492127494128494127497126496126495126495127495128496128497128498126500124502125499125498126498128498127499127500126504124505124504124502125503128504128504128505126516125516125515125514126514128513126515127516127523126523126522126521127521128521128522128523127531126530126529126529127529128528128530128531127532125533126531126530127531128531128532128532127541126541126540126539127539128539128539127540126553125555126552125551127552127551126552127553126572126571126571125570126570127570128570126572126576124575125575125574126574128573128574126575126577125577124575125575125574128574126575128577125581125582124580125580125579126579126580126582126584125582124582125582125581126582127583126583126589126588124586124586125585126585126587127589125590125590126588124586126586126587127589126589126590125590124590125590125590126589128590128590126596126595125595124593126594127594127595126596000000127134126133000000000000000000000000000000127135000000127134126133000000000000000000128135126149125149126149125147126147128146127148129150126152126152000000125149126149129150127150127151128155125156127154125153128153128154000000128154127161126161126160125159127159128159128160128161127345126345126344127343127343128343129345129346128349125349127348126346128347129347129348129349127359127359126358126357127357128357128358127359127368127368126367126366126367127367128367127368127372126372125372125371127370127371127371127374126375126374125373126372127372127374127374127376127387126387125386126385127385128385128386128387))
 (.node 1 (.leaf 127393126393126392127392127391127392129393129395127398125398126397126396127396128396128397128398126403126403125401126401126400127400127401127402126403125403126403125401126402127401127402127403126408125409126406125405126406128405127407127408126410125410125409125409126408127408127409127410126413125413126411125410126411128410127412128414126416125416127415127415127415128415128416128417000000000000000000000000127428128426128429000000127433126435126432000000000000000000000000128433128442126443126442125440127441128441128442128443127453126453126452126451126450127451128452127452000000000000000000126459127459127457128460000000128477125477127476126474128476000000000000000000128482127482127481125480128480129480128482129482128482126484127482127481128481128482129482129483127487126487125487126487127485129486128486129488128498127498127497127496128497129496129497129498127500126500126499126498128498128498128499128500127507125508127506127506128505128505128506128509127512127511000000126510127510128510127511128512127518126518126517126516127516128516127517127518128538127537127536127535128535129535129536129537126549126547126546126545127545128545127547127548126549126548126547126546126547127547127548129550126567125567126565125565126565127565127566127567128570127571126570127569127569129568128570128571126580125580125579125579127579129578128578129580127591127591126590126589128590128589128590129592127595126595126594127591127591129592127593127594128135127135000000000000000000000000000000129135129146126146128145128143129143130144130145129145)
 (.leaf 128146126147126146128145127144130145129145129146128157000000128155000000000000000000129154128156128158128158000000128155128154129154128156128157128165128165127164127163128163130163129164000000128199128199128197000000000000000000000000000000000000000000000000128199128199000000000000000000127333126333127331000000128330128331128332128333128335126337126334126334129334129333130336130337129340128340128339126338129338130338130339130340129341128341128340128339129339130339130340130340129341128342128341128340129340130340130340129341128343127343128342128342129341129341130343130345129348128348128347127345129346130346130347129347129351128351128349128348129348129347000000130351129353128352128351128351129351130351130352130352127359127359127358127357128357129357128358128358127361000000127361000000127359128359128360128361127367126367126366127364127364128364128365128366128367127367126367126366127366128365128366130368127376126375126375126374127374130374128375128377127378126378126377126375127376128377128377128378128380127380126378126377127377128377128378128380128386127386127385126384128384128384129385128385127392127391000000127391127391128391128391128392128398127398127397127396128396129396129397129398128405126406126404126404128403129403129404128405128416128416127415126413128414129414128415128415127423126422126421128421129421129421000000128423127424127423126423126422127423128423128423128425128426127428127425127424127425128425129425129426000000000000000000000000128429129429000000000000128438128438128438128437128436128436129437129438))))
 (.node 4 (.node 2 (.node 1 (.leaf 128443128442128442127441128441130441130441129443127448127448126448127448127447129448128447128448127455127456127455126453128454129454129455128456128460127460127459126458127457128457128458128459129478128478128477128476000000000000000000000000129479128478128478128477000000000000000000000000128482128481128480128478129479000000000000000000128486127486127485128485128484000000000000000000129494128494127494128492000000000000128493130493128500127500127499128498128498130498129499130501128506127506128505128505128504129504128505129508127511127511127510127507128509129509129510128510128516127516126515128513127514128513128514128515129535128535128534127532129534129534129535130535128545127545127544127543127544130544128545130546128559127561128559128558129558130559130560129561129568127569126567126565127566128567130566129569129574128574128573126572128573129573129574130574128576126575128574128573129573129574130574130575128578126578128577126575128576130575130576129578127582127583126582126580129580130581128581129583127585126585126584126583127583128583128584129586128586126587126585126585127585129586130587130587129592127591128590128590128589128591128591130592127599127599127598127597128597130597000000000000129136000000128135000000000000000000000000130136130144129143129142128141000000000000000000000000129162127161128161128160129160130158130161130162129164128164128163127161129162130162130163130164000000000000128165128164129164130164000000000000130338129338129337128335130337130337130338131339130339129339129338129337130338130338131339131339)
 (.leaf 130346129346129345128343130345131344131345131345130347129347129346129345130345131345131345130346130352129353128352129351130351131350131351131352128360127360127359127359128358129357129358129359128364127364128363127363128362130362129364129365128365127366127364128363129363129364129365129365128366127367127366127364128364129365129365129366128370127370127368128367130368131368129369129369128386128387128386128385129385130385130386130387130395129395129393127392128392130393130394130395129397128397128396129395130395130395130396129397129403127402127401127400128400129400129401130403128410127410127409127408128408129408129409129410000000129418128418128417129417131417129417129418129426128426127425127425128425129425130425130426000000000000000000128429129429130427130430000000129434128434128433000000000000000000000000000000129438128438128437128436128436131436129437130438128445128445128444128443129443131441130444129444128446127447128446128445128445129444129445129446129448127447127447128446128445129445129446130448128452127452128452127451129451131451130452131452128456127455128455128454129454131453131455130456000000000000000000000000129463000000000000000000000000000000000000000000000000130469129471000000000000129480129479129478000000000000000000000000000000128490129488128486000000000000000000000000130496129496129495129494130493000000131495131495129499128499128498129498130498131498131499131500129504128504128503129503130503130502130503131504129510128510128509128506129508130508130509129510129517127517128516127514128514130513129515129516))
 (.node 1 (.leaf 130537129537129536129535130535130536131536131538130539129539129537129536130536131536131538131538129553129551128550129550130549130549130550131552130554128555129553129551129553131552131553131554129563128563127561128559129561131560131562131563129565127564127564128563129563131563131563129564130569128570129568127567130566131567130569130570128581128582129580128578130579131579130581131581128584128585127583127582129583131583131583130585130587128586127586127585129586131585130587131586130593127593129592128590128591131590130593131593129596129594127594127593130593131593130595131595000000128598128597129594129596131595000000000000000000000000000000000000000000000000129602000000130136129136129135000000000000000000000000000000130147129149129146129145131145132146132146131147000000129151128149129149130147131147130149131151130151128153129152129151000000131151132151131153000000130158128157128156130157131155130157132158130158129160130158128157000000130157132158131160130163130163129162128161130161131161131162131163130338130338130337130336130336131336131337131338131344130345130343129341131342131341132342132344131350130351000000129347130349131349132349132350131352130352130352130351131350132350131350131351129358128359128358128358129357130357130357130358129369128370130368128366129366132366132367131368130375130374129372128372129372130373130373131375131375128375130374129372129372130373131375131376129381128381128380128380130380132379130380130381130386128385129385128384130384130384131385131386130395130395129394128392130393131393131394131395)
 (.leaf 129400128400128400128398129398130398130399131401130405128405129404129403129404130404131404131405129408128408129408128405130405131405130407130408129411128410128410128410129409130408130410130411130414129414129413128410129411130411130412130414130416128415128415129414130414130414131415131416129417129418129417128415130416131416131417132417130422128423128423000000129421130421131421131422130427129429129426129425130425131425131426131427000000000000000000000000130430131428000000000000131441129443130441130441131440000000131440131441130452128452129451128448130450130450131451132451131453129454128452128452130452132451131453131454131457128457128456128456130456131456131457131458130461000000128459128458130459132458131460131461130469000000000000000000000000000000000000131469131502130502130501129499131500131499131500131501129510129510129509129508130508131508132508132508130520128519128518128518129517130518130518130519129524129524129523129522130522130522131523131524129530129531128529128528129529131527130529131531131542130542130541130541131541132540132541132541131547130546130546128545130544130545130546132547131548130547130546130546130545130546132547131549130555130557129554130554131554131553131554132555131558130559130558130557130555132555132556131557130564128565129565128563131563132563132564131566131567130566128567128565130564131566132566131568130577130576130575130574131575132575132575132577130581130581130579130578131578131579132579130581130587130587129586128584130585132584131586132586131590128591128590130587130589132589132589132589)))
 (.node 2 (.node 1 (.leaf 131147130147130146131145132146000000133147132147131153130151129151000000131151132151133151132151130154130153129153130151131153132151131154131154130157000000130157129155130155131155131156132158131162130162130161130158131160133159132159133161000000000000000000000000000000000000000000131328131331130331129331000000130331131330131330132331131336130336130333129333131334132332132333133335131338130338130337130336131336133335131337131337132344131345131344131342132342133342000000133344131355129357131354000000132354133353132354132355130358129358129357129357130357131357131357131358131363129364130362130361130362132361132362132363130373129372129370129369132369132369132370131371132379130380131378131377132377132378133378133380130381129381129381129380130380133380131381131382131387130387130386130385131385131385132386132387131395130395130394130393131393131393132394131394131402129401129400130400130399131400131400132402131405130405130404129404130404131404132404132405130408129409129408130408130407133406131408131409130412129412129411129410130410132409131411131411130421129421130421129418131420132420131421131421131422130422130421129421130421131421133421132422131428130430130427130426131426131427131427133430131436131436131436000000000000000000000000132436000000131440130438129437130438133438131439131440131442130444131441131440131440131440131442131442130444129445129444130444131442131442131444131445131447129446129445129444130444131444131445133445130448129448130448129446131447133445133448133448130461000000130461129459131460133460132461133461)
 (.leaf 132463131465131466000000000000000000000000000000131465131466131467131469130469000000000000000000131468132468132469000000000000000000000000131473133471000000000000132504131504130503130502131502133502132503133505131508130508131506131504132504133505132505133506132508129510130509130508131508133506133507132508130513130513129513129512130512131512131513131514130529129530129529130528130528131526131527131528132533129532129531129530131531132531132532132533132541131542131542131541132540133540133541132541130546130545130544130543130544131544131545133546132549131549131548131547132547133547133548132548131550130550130549131549132549132548133550132550132563131563131563131562131560133561133562133564131571130571130570130569130568131569133570131571132584130585131583131583131581133582133583133585131592131590131590129589132589133589132591131591131601129602000000000000000000000000132600132603132147131147132146132146000000000000000000134148131154130154130153131153132151134151132153000000133159131160132158130157132158134157134159134159132159131161131160132158133158134159134159134161132333130334131334131331132331134331133332134334131337131338131337131336133335133334132336132337132339131339131338131337131337132336132337133339000000132340132340131339132339133339133340132340133342132342131341132340132340132340133341133342133345132345132344132344000000000000133344133347133349131349132347132345133345133347134348134349132355131355131354132354133353134353133354134356132370130371132369131368133368134368134369134371))
 (.node 1 (.leaf 132378132377131377131376132376133374132377134378131388131388131387131386132386133386132387132387131390130391130389130389131389132389132389132390131391130391130391130389131389132389132390132391131393131393130391130391131390132390132391133393131398130398130397130396131397132396132397132398131415131416131415130414132414134414134414133416132420131420132418132417133417133418133419133420132422131422131421130421131421133420133421132422131427131427131426131425132425132425132427132428133430131428131427131426131427132427132428133430000000000000000000000000132431133431000000000000132436131436000000000000000000000000000000000000131454131455131454131453132453133453132454133455133458131458131457131456132456133456133457133458132463000000130461131461132461133461133462133463131468000000000000000000131466134467134467132467132470132470131469000000132468132469133469133470000000000000000000000000000000133472132474132475000000000000000000000000000000132474132475132476000000000000000000000000000000132475132476000000133505132504132503131502133502133502134504134504131510130511132508132508133507133507132509132510131516131516130513130512131513132514133515132515131519130519130518130518132518133516133517133518131522131523130522131519132521133519132521132522131527131527130528130526132525133525132527132528131528130529131527130528131526132527132528134529132533132533131532131531132531133529134532133533132536132536132535132534133534134533133535134535133541132541132540132539133540134539134541134541132542131542132541132541133541134541132542134542)
 (.leaf 132558131558131557132556133557134557133557133560132566131566132564132563133564134563133565133566133585131586132584132583133583133584133585134586133593131593131592132589132591134590134592000000000000131596132594132593133593000000000000000000132600000000000000000000000000000000000000134600000000000000000000131601132603000000000000000000134150132151133149132147134148000000135148135149133155131156131155131154000000135154133155134157134162131163133161132159134161134161134162134163000000000000000000132164133164135164000000000000000000000000000000000000000000000000133197133198000000000000000000000000000000133197133198000000133327000000000000000000000000000000000000134327133329131330131328000000133327134327134328134329133332132332132331131330132331135331134331134332132336131337133335132333134334000000134334134337133342133342132341132340132340134340133342133342134349133349132346133345133347134347134348134349134353133352133351133350134351134351000000134351134353133353133352133351134351000000134351000000133354132354133353133353134353000000134353134354133356131357132355132354133354134354135356135356132358131358131357131357133356135356134357133358133360131361131360131358132358133358133360135360133364132364132363132362134362135362135364135364133374132376133374133374134373135373135373135375133383131385131382131382134382135382134382135384132387131388132387132386133386133386133386134388133394132394131393131391132391133392134393133393133400131400131398131397132397133396133398134400133404132404131402132402132401133401133402134404))))))
 (.node 16 (.node 8 (.node 4 (.node 2 (.node 1 (.leaf 132410131409131408133406133406134406133408133410133410131411132409131409132410133410133410134412134414131415132414131411133413134413134414135415133418133417131417131415133416133416134417134418133431132431133430131427132428135427133429134431133438131439133438132436000000000000000000134438133445133445131445131444134443134443135446135446134450133449133448133448133448134448135449134450134450132451133449133448134449135449134450134451133457132457132456131454133455134455134456134457133472000000133471132470133470135470135471135472134506133506132505133505134504134504135505134506132511131510131510132508132509134508133510133511132512131512131510131510132510133510133511133512132514131513131512131510132511133511133512135513134516131516131516131514133515134513134514134515133522131523131522131522132521134520134521134522133525132525131525131524134524134525135525135526133529132531131528131527132528135529134530135530133535132535133534132533133533135533134534134535134538132539133537133536134536135536135537135538134546133546131545131544134544135543133545135545134547133547133546131545132544133545135545134548133555132557132554133553134554135554134554134555134563133562133561133560134560135561134560135562134569133570131569133568134567135568135569135570134570132572131571133570134569135570135570135570134587133586133585133585134586134586000000000000135148134149134148000000000000000000000000136148135152134151133150134150135149136150136151136152134159134159134157133155134157135157000000135159134163134162133162134161134161136160136162136162)
 (.leaf 134329133329132328133327134327136328136329136330134332133332134331132331135331136331136331135332133340132340133340133339134339135339134340134340133344133344000000133342133342135342134344135346134349134349134348133347134347136346136347134349134354133354134353134353000000135352134353135356134357132358133356134356135356000000135356135357135365134365133364133363135364135363135364135365135366134366134365133364135364135364135365135366134369134369134368134367134367135367135368135369135373134373134371134369134369135369136371136372135373134374134373134373135373136372136374136374135379134378134378132377134377135377135378136379134382132383134382133380135382136382136383136383135389132389132389132387134388136387136387136388134389132390132389132389135388136387136388135389134414134414133413133410134412135412134413134413000000000000000000133431134431134431134432000000134438133438133437000000000000000000000000135438134443133441133440000000134441135439134441134443134450134450134449133448134448135448135449135450134455133455132454133453134453135453136454135455134457133457133456133455134455135455135456135457134462133462133461133460134460135460136461136462133463133464133463133462134462136462136462134463134464133464132464133464133463134463135463135464135468132467134467134467134467135467135468136469135470133470133469132469134470136469136471136471000000134499134498000000000000000000000000134499000000134500134499134498000000000000134499134500134508132509133507134506134506136506135507136508134522133522132522132521134520134520136523136524))
 (.node 1 (.leaf 135525132525134524133522134522136524136524136525135533133533134532133529135530135529134531134531135539134539134538134537135537136537136538136539135540134541134539134538135538136538136539000000135543134542132542134541000000000000000000000000133545132544134544134542135543000000135543136545134555133555133554134554135554135553136554136556135568134567134567133566134566135566136567136567135574133575133574134573135573135573135574134575133581133583133582133581135579136580136581134581000000134592134590133588000000000000000000000000000000000000000000134592000000000000000000000000000000134600000000000000000000000000000000000000136154135154135153135152136152137152135153137153136155133155135154135153135152135153137153137154135159134159134158134157135157136155136158136159136160134161000000134159135159136159137160136161000000000000000000000000000000000000135203000000135326000000000000000000000000000000000000136326135332134332134331135331136331137331136331136332135339134339133338134337134336137336135337135339135342133342133342134340134340136340135341135342136347134348134347133344135346136346136347137348134351000000134351134350135350137348135350135351134351134351000000134351134351135350135351135352134353134353000000134351134351135352135353135353135358133358134357135356135356137356137358136358135369134369134368134367135367135368137369137370135377134377135375135373136374137374137375137375136379135379135378134377135377137375137376137378136382135382135381135380136379137380136381136382135386133386135384134382136383137383137385137385)
 (.leaf 136387134388133386133386135386137385136387137388134396133396133396133396134395135395135396135397135399133398133396133396134396135396135397137399134400133400134400133398135399137399135399135400135402133401133400134400134400135399135400135402134404134404133402133401135402135402136403135404135409133410133410133408135407136407136408136411134413134414134413134412135412136412136413137414134420133420133419133419134418135418135419136421135420133421133420133419134420135419136421136422135426133425134425134424134423135423135424136426134431134431133429135427135427135428135428135429135439134441134438000000000000000000137438136439135445134443000000134443134443135442135443135444135448134448135446135446136446136446137447137447135450134450135449134448135448137447137449136450135457134457134456134455135455136455136456135457136461133460134460133458135459136459136460136461135464134464134463133463134463135463136463136464136471135471135470135470136471136471000000136471136473135472135471135470136471000000136471136472136476135476135475135475136474137474137476137476135478135477135476135475136476137476137476137478136479000000135477135476136476137476137478136479000000135504134504133502135503136503137504000000135507133508134506135505136505136505136506136507135515134515134514134513135513137513136514137516136520134519133519133517135519137518137519137519136527135527135526135525136525136526136527137527135527135529135527135526136526136527137527136527000000000000135540135539136539000000000000000000136559134560135558135557136557137557136559137559)))
 (.node 2 (.node 1 (.leaf 135564134564135562134560136562136562137562136562135566134566135565134564135564136562137564135565136570135570135570135569136569137568137570137570136580135579133579134579136577000000137579137579000000000000134586133585135585000000000000000000136155135157136155136154137153138154137154137155137160136160135159000000136158137158138158137160000000000000000000000000000000000000136183136184000000000000000000000000000000136183136184136185000000000000000000000000000000136184136185000000000000136200136199000000000000000000000000000000000000000000136200136199000000000000000000000000000000000000000000000000000000138204136205000000137329136329136328135326136326138327138328138328137330136330136329136328136327138328138328137329137331136331136330136329137329138328137329137330136332135332136331136331137331137330138332138333135335135336134334135332136332138333136334138335136358135358135357135356137356138356137357137358137372136372136371135369137370138369138371138372136390136390135389136388137389138389138389137390135395135395134393134393135392137391136393136393136404134405134404134404135404136403137403136404136413134413135412135409136411138410138411137413135422135423135420134420136421137421136422137421135424134424134423135423135422137421136422136423135429134431135428135427135428137427136429137431136439135439135438000000000000000000138438137439135443134443134443134441135442136442137443136444137452134451134451135450136450137450138450137452136455135455136454135453136453137453137454137455136464135464135463134463135463136463136463137464)
 (.leaf 137474136474136473136471136471136471137474138475137476136476136474136473136472137474138475138475136500134500134500134499000000000000000000137500000000000000135504135503136503138502000000000000137513135513135512135511136513137511137512138514136514134515135513135512135513137512138514138514137519135520135519136518137518137518137519138519137532134531134531135529136531138530137532138532136543135543000000000000000000000000000000000000136550135550134548135548136548138548137549138549137555136554135553136553136552137552138554138555137557136557136556136554137555138555138557138557137560135561136559135557136559138558137560137561137572135573136571136570137570137571138572138573136573134575135574135573137572138573137572000000000000136576134577134575135574000000000000000000000000136577136576134577000000000000000000000000137581136581136580136578137579000000000000000000000000134581136581136580137579000000000000000000000000135585136583134581000000000000000000000000137149136149000000000000000000000000000000138149137155136155137154137153138154138153139155139156137160137160136159136158137158139157138157138158137165000000135163135163136162000000137163138165000000000000000000000000137165138165000000000000137202135203000000000000000000000000000000000000137336135337137336135335138335000000138335138338137342135342135341136340136341137341138341138342138347136347136346137345138345138345138346138347138356135356137355135353138354139353139356139356138356137356135356137355138355139356139356138356137359135360136358137358137357139358139358138359))
 (.node 1 (.leaf 136363136363136362137361137361137362138362137363138369137370137369135368138369139369139369139369138371137371137370137369138369139369139369139370138377137376137375137375137374138374138375138376137380137380137378137376138377138376138379138380137391135392136390137389138389138389139391138391137395135396135395135395136393139393139395137395137400135399137399135397137398139398139398139400138410136411136408136407136408139408137409139411137415135415137414136413137413138413137414138415136417135417136417135415136416137415137416137418136418135419135418135417136417137418137418138420137427135428136426135426136426137426138426139427000000000000000000000000137434138432000000000000137439136439137438000000000000000000000000139440138450137450136450137449137449138449139450139450137454136454136453137452137452139451139452138454137464136464136463135463136463137463138463138466137466137466137466136464137464138466138467138468136471000000136471136470136470137469137470137471000000000000136479137478000000000000000000000000137500136500136499000000000000000000000000000000137518137518137516136514138514138516139517139517136523136524136523136520137522137522137522137524000000000000137533137532138532138533000000000000138548136548137546137545138545139545139546138546138557137556137555137554138554139554138556139556137569137568137568135566137567138567138568139569138150136150137149000000000000000000138150140151000000136162137162137161138161138161138161138162000000000000000000137165138165139165000000000000137181000000000000000000000000000000138180138181)
 (.leaf 138182136183000000000000137181138181139181139184000000000000136185136184138185139185000000000000000000136205138204137202000000000000000000000000138206000000000000136205000000000000138205000000000000000000000000000000138206000000138208140209000000138327138326000000000000000000000000000000139328138328138327138326000000000000000000140327138329137329138328138328139328140327140328140329139333138333138332137330139332140330140332139332139333136334138333138332139332140332139332140333138342137342137341136341137341138341138341139342139350138351137348000000137348138348138349139351139352138352138351138351139350139351140352140352139352138353138352138351139351140352140352140353139353138354138353138352139352140352140353139353139356138355138354138353139352140353139353140356138359137359137358137357139358139357139358139361137363136363137362137361137362140361139362138363137365137365136365136363137363138363138365140366138366138366137365136365137364138365140366140367139374138374138373138372139372140372140372139373138381137381137380137377138379139379139380138381138388137388138386138385139385140385139387140387138391137391137390138389138389140389139390139391139402136403136403138402139402140401140401139402138404136404137403136403139402139402139403138404138406137406136406136404138404138404140406139408139411138411138410136408137409139410139411140411138413137413138411138410139411139411140411139413138415137415137414137413138413139413139414138414138432137434136432136432137431138431139431139434137443136444137443136442139440140441138442139444))))
 (.node 4 (.node 2 (.node 1 (.leaf 138449137449138448137447137446138447138448138448137458136459136458137457137456138457138457139459137462137463136462136460138461139461139462138462138463136463136463137463137462138462138463139465137470136471136470137469137469138468138469138471137472136471136471136471137470138471138471140472138472137474136471136471137471138471140472140473000000000000138502137500000000000000000000000000138506137506137505000000000000000000139505140508138516138514138514137512138512140514138514140516138517137519137518138516139517140516140518140518138526136525136524136523137524139522138524139526138528138527138526136525138526139526138527138527139549138549137549138548138546140547139549140550138552137552136552137552138552139552140552140554138560137560138558138557139557140556140559139560138562137564137561138560138560140561139561140562138153138153137152138153139153141152141153141154139162137163000000137161138161000000140161000000000000000000000000138165139165139165139166140167000000000000000000000000000000139166140167000000139181138181137181137180138180140179140182140183000000138186138185138182139184140184000000000000138338138338138335000000139336140334141335139337139342138342138341137341138341139341139341139342140352139351139350137348138349140350140351140352139362138362137362137361138361141361140361140362138381138381138380138379139379139379140380139380140383139383138383138382139382141382141382141383139387000000138388138385139387140387141387141388140394139393139393138391139391141392141393141395139395137395139395139393140394141395141395141395)
 (.leaf 140400139400139398139398140398140398140399141399140401139402138401139400140400141399140401000000139403137404139402139402140401140401140402140403139410137409139408138406139408140408140409140410138414138415137414138413139413140411139414140415140417137418137416137415139416140416140417140418139423139423139422137421139421139422140422141424140428139428139427138426139426141427141428141428139434138432138431137431138431139431139432140434000000000000000000138432139434140434000000000000140441139440139440000000000000000000000000000000138445138446137445137443139444141442140445139445138469137469137469138468139468140468140469140470139505138505000000000000000000000000000000140505139511137510137509139509140508140509140510141511140513137512137511137510139511141511140512141513139522137524137522137522140521141521140521141523139552138552139549139549140550140550141550139550140554138552137552138552139552139550141552140552139565138567139564139564140564141563140564141565139570138570139569138568139568140568141569140570000000139573139571137570140571140571000000000000000000000000000000000000000000000000139579139580140149138150000000000000000000000000000000000000141152139153140151138150140149000000141150142151140154139154138153139154141153142152142155142155000000138161138161139158139158142158140160140161140161138162138161138161140159140160140161140161000000000000000000000000140167141167000000000000140179138180000000000000000000000000141178140181140183139181138181138180140179140181141182141183000000000000140209138208000000000000000000000000))
 (.node 1 (.leaf 141328140328140327000000000000000000142328142329141329140329140328140327141327142328142329141329140330140330140329140328141328142329141329141330140334139336140333139332140332142332141333141334139339138339138338138338139337141336140338140339139340138340138339138338139338140338140339140340139341138341138340138339139339140339140340140341139341138341138341138340139340140340140341140342139342139342138341138341139341140341140342142343139347139347138345138345140345141345141346140346139348138348139348139347139347140346140347141349141361138361139361139358140360141360142360142361140363138363139362140361140361141361142363142364141368140367140366138365141366142366142367142368141369140368140367140366141366142367142368142368141369140369140368140367141368142368142368142369141372140372140371140370141370142370142371142372141375140374139373140372141373142373142374142375141382139382138381139380140380141380141381142382141395140395140394140393141393142393142394142395141399140400140399140398140398142397141399142399000000140401140401140400141399142399141399142401140403139403139402140401140401141401141402142404140408139408140406138404141405142404141405141406140410139410139409139408140408141406141409141410140417139417139416138414140415141415140416141417140422139422139421139420139421141420141421141424141428140428139427139426141427141426141427141428000000000000139434139431139432141431140433000000000000138442140441000000000000000000000000000000139445138445138444139444141442142442140444140445139451139451139450138448140449141449140450140450)
 (.leaf 140454138454139453139452139451140452140452140454139455138455139455138454140454140454141455141456140470138469138468139468140468141468140469140469140473140472138471138471000000140470140471140473140506140508139505000000000000000000141505142508140510138510140508140508140506142508141509140510141514140514140513139512140512141512141513141514140516140516138514140514141514141514142515142516140521138523140521139519141520142520141520141521139526138527139526138524140525141523141524142526000000139531140529138528140529142528000000000000140547139549140547000000000000000000000000141547139561139561139560140559140559141557140560142560140562140561139561139560139560140560142560142561140570139570140569139568140568141568141569142570000000000000000000000000139579140580141581000000141150140152140149000000000000000000000000000000142155141154141153141152142151000000143153143154142158139158141158000000142157143157143158142158141164139166139165000000142163143163142163143166000000000000000000140167141167142167142168000000141184140184140183140182141182141182141183000000141217000000000000000000142216141215143217142217000000000000000000000000141220143219143220143221140338139338139337141335141335141336141336141337140346139347139345140345141345141345141346143346141357140357141356141356142356143356142356143357142361141361139361140360141360143359143360143361142374141374141373141372142372143372143372142373142375141375141375141374142374142373142374142375141378141376141375141375142375142374142375143376141380140380139379141376141378143376141378142380)))
 (.node 2 (.node 1 (.leaf 142383141383141382141382142382142382143382143383141390141390140389140388142388142388143391143391142393141393141392141390141390143391143392143393141402140402140401000000142401143401142401143403141406140408141405141405142404142404142405143407142411141411140410140409141409142409142410143411141412139414140411141411142411143411143412143412141417140417140416140415141415142415142416142417141419140419140418140417141417142417142418141419141421139422139421140421140420141420142420142421142424141425141424140422141424143423142423142424141431139432139431141430141429141429143430143432142442141442000000000000000000000000000000142442140447139447140447139445140445141445141446141447140450139451140450140449141449142449141450141450141456139455139454140454140454141454141455142456141463139462139462139460140461141460141461141462140469140469140468139466140466141467142468141468000000000000000000140475141475000000000000000000141505140505000000000000000000000000000000142505140510141511140510140509141509143509142510143511141524139526140525141523141522143523142523142524142528140529141527139526142526143527143528000000141547140547000000000000000000000000000000000000141557140559141557140555141555143556143557142557142567141565140564141563142564143565143565143566142570140570141569140568141568143567143568143569141577000000000000000000000000000000000000141577000000000000000000139580141581000000000000000000143158142158142157142155143156143155142156143157143162140161140161140160142161144160144161144161142163000000142163140161143162144161143162143163)
 (.leaf 141167142167143167143168142168000000000000000000000000000000142175142176142177142179140181141178000000142177143177143178143179143217140216142216141214000000000000000000000000142217141217140216142216141215000000000000000000142334141334141333142332142332144332144333144335141336141336141335141334142334144335143335142336143341140341140340140339142340144339144340144341141345141345142343140342143342144342144342143345141352141353141352140350141351142350142351142353143366142366142364142363142362143362144365144365143367142368142367142366143366144365143367144367142382142382141381141380142380143380144381143382143388142388142388141387142387144387144388143389143395142395142394142393143393144393144394144395143398141399142397142397142397144397144397144397142405141405142404142404143403143403143404143405143411142411141410141409142409144409143410144411142417141417140416141415142415142415143416144416141420140420141420141419141419142418142419142420142428141428141427141426141427142427143427143428000000000000000000000000142435143435143436000000142443140444142442000000000000000000000000142443141446140447140445140444142443142443142445143447141450140450141449140447141447142447142448143450141454140454140452140452142452144451143453143454141467140466140466140464142465142465143466142467142472140471140470140469141468142469142470142472000000142473140473140471142472142472143473000000142505141505000000000000000000000000000000143505142510140510141509142508142508143508144509143510141512141512140510140510142510143510144510144511))
 (.node 1 (.leaf 142516142516142515141514142514143514144515142515143527142526141524141523142523144523142525000000143528142527142526141524142524142525000000000000000000000000142528142527143528000000000000000000143561142561142560140560143559143558144559144561142561141563142561142560143560144559144561144563143565142565142564142563143563143562144565143566143568141569141568142567143566143567143568144568000000000000000000000000000000000000142602000000000000143154143153000000000000000000000000000000144155142156143154143153000000000000000000000000143168142168142167143166144165144166143167143167000000000000000000000000000000143171143172144174143179142179141179142177143177143178145178144181000000143220143219142217000000000000000000000000000000143221143220143219000000000000000000000000000000000000143221143220000000000000000000000000143327142327000000000000000000000000000000000000142330142330142329142328142328145328143330143331143331142331142330142329142329143330143331145332143335141336142334142333144333144333000000144335144342143342143341143340144340145340145341145342144342143343143342143341144341145341145342145343143347143346141346141345143345145344143346143346143350142350141349142348142348143347143348145348142351141351141351142350143350145348143350143352144354142354141352141351142351143352144353144354144358143357142356143356143355145357145357145359144360143360143359143357144358145359145359145360143362142362142361143361144360144360144361144362144367143367143367143366144365145365144367000000143373142373143372143372143371143371144372144373)
 (.leaf 143376143376142375142374142375144374144375145378143382142382142381142380143380144380145380144382144392143392143391143391143391145390145392145393143399143399143398143398144397145398145398144399144409142409143407142405143405144405144406144409144411143411143411142410143410144410144411144412143412143412143412143411144411144412144413144414142418142418142417142416143416145416145416145417143424142424142423143423143422143422144423144424143428142428142427141427142427143427144427144428144430143430141429142428143428144428000000145430143435142435143433143432143431145431145433143435142448142449141447141446143447144445144448144449144451142452141450141450143450144450144451144452142460141460141459141458142458143458143459143460142469141468141468142468142467143467143468143469142470142469141468141468142468143468143469000000000000000000000000142473143473000000000000000000143505142505000000000000000000000000000000000000143510142510143509142508143508144508145508144510144515142515142514143513143513145512145514143514143519142519142518142517143515143516143517145518143548142550000000000000000000000000000000000000144557143557143556143555144555145555144555145557144559143560143559142557144558145558145559145560143163143162144161144161144160145160145161144162144163143163143162144161143162145161144162144163143167143167144165143163144163144163146164146166143169143168142168143168143167144168144169145170143171000000143168142168143168144169145170144170143172000000000000000000143171144170144171145173143182143183143182143179144181145179145182144183)))))
 (.node 8 (.node 4 (.node 2 (.node 1 (.leaf 145332144332143331142330143331145330000000145332144333144333144332143331145332000000145332146334145340144340144339144338145338145337145338146341000000144354144354142353144353146352146354146355145359144359144358143356145357145358146359146359144362143362143361144360144360146361145361145362144367143367144365144365145364146364145364146366144369000000000000000000145368146367145368145369144375143375142375143373144373144373145374146376145380144381143380144379144379146378145380145381144389143389144388144387144387145387146388146388144401143401000000143399144399145399145400145401144406143406143405143404144404144405146407145408144411144411143410144409144409145409145410145411143421142421142420142419144420000000144421144421144425142427143424143423144423144424144425145427000000000000000000000000144437145437000000000000144445143447142445142443000000000000146444145445144450143450142448142447144448145448145449144450144456142455142455143454143453144453144454145456143463142463142462142462143462144461144462144463144465142465142463142462143462144462144463144464143467142467142467143466143465144466144466144467143468142468142467142467143466144466144467000000144510143510144509143508144508145506146509146509145524144523144522143521145523146523146523146524144568143568143567143566143566144566144567144568144569144568143568143567143566144567144568146569144570142571144570143568145569146569145569145570144603142602000000000000000000000000144601144603000000143158145157000000000000000000000000000000145161143162144160143159146160000000000000000000)
 (.leaf 144173144174143172143171144171146170145172145173145175143175143174143174144174146173146176147177145179144181145178143178144177145177146178146179144183143182144182144181145179146179145181145182145330143331143330145328145328146328146329146330146343145344145343145342146342146341146342146343145346143347143346143346145344146344146345147346146349145348143348143347145346147346147348147348145362144362144361144360146361146360146361146362145372144372143371145370145370146370145371145372145380144380144379145378146376146376147378147379146388144389144388144387145387146385146388147388145402143403144401144400145400145400145401146402145410144410144409144406145408146408146409146410144428144428144427143427144427145427145428145429146431145430000000144428144428145429145429000000146431145431145430000000000000145429000000000000144434143435145433145431146431000000145433145434000000000000000000144437145437146435146438000000145445144445145444000000000000000000000000146445144450144450144449144448145448147447147449146450144454143454143453144453144453145453145453145453144458143458143457144457144456145456145457145458144460143459143458143457144458145457145458145459144460143460143459143458144458145458145459145461144462143462143462143460144460145461146462147462144466143465144465143463144463146462145464000000145506144508000000000000000000000000000000146506145514144516143514145514146513146514147514147515146519145518143517143516145517147517146518146519146522144522145520145520146520146520147521147521000000145525145524144522146523147523000000000000))
 (.node 1 (.leaf 145525145524146524000000000000000000000000145553145552145551146551147550147552000000146555145555145554145553000000000000000000147555144563143564145562144560145560146560147562146564145570144570143569145569146569147569147570147570000000000000000000000000145573147572146574000000000000146160146159000000000000000000000000000000146162144162145161145160000000000000000000000000147164146164144163144162146162000000000000148165146168144168146166146164147164148165148166146167147169144169144168146166146165148166146167147169146170144171144170145170147170000000000000000000145177144177145175144175146176147174147177147178146179145179145178144177145177146178146178146179147335146334146334145332147332147332147333147334146337145337000000145337146337148336147336147337146345145345145344146343146343146343147344147345146351146350146349146348147348148348148348147351146352146351146350146349147348148348147351147352147359146359146359145358146358147358147359147360146362145362145361146361146360148360148362148362147366146367146366145364146366148365148366148367146370145370145369145368147368147368146369146370146376146376146376145374146374147374146375148378147382145383145382145381146381148381148381148382146385145387146384146384147384148384148384147387146403144404145402145401145401147401147402147403146408145408146407144405146406147406147407146408146435145437144434144434145434146434147434146435000000000000000000000000146438147438000000000000146445145445146444000000000000000000000000147445145451145452144451144450146450148450148450148451)
 (.leaf 145456144456145456144454145453146455146455148457146462144463144462144461146462147462147463147464146506145506000000000000000000000000000000147506147523146523146523146522147521148521000000000000147550146551146550000000147549148549148550000000145556145558144555146555147555000000146556146557147559146558145558144555146555146556146557147559147565144566146564144563146564148563146565147566000000000000000000000000146574147572148573146575000000000000000000000000000000148573146575000000145603144603144603144601147601148601146602146603000000000000144603144603145603146602146603000000000000146170145170147170000000000000000000000000000000000000145182145181147182148182000000000000147329146329146328147328147327147328148328149329148336146337147335147334147333148333148334149336148346147346146345146344147344147345000000148346147353146353146352146351147351148351148352147352147358146358145357146356147356148356148357147357147372145372145371146370146370148370149372148372147374146374145374145372147372148372149374149375148381146381147379147378148378148379148380148381148384147383147382145381148381148382149383149383147389147388146388146385147387149386147388147389146393146393146392146391147391148391147392147392147399146399146398146397147397147397148398148399147403146403146402145401147401148401148402147403146408146408146407146406147406148406148407148408146411145411145411146410146410147409147410147411147413145412145411145411146410147410147411147413146429145428145427146427146426149425147427147428146429145429145428145427146427147427147428147429)))
 (.node 2 (.node 1 (.leaf 146430145429145429145428146429147428147429147430000000000000000000146438147438148438000000000000147445146445000000000000000000000000000000148445147449147449147447146445147445148445148446147448148450146450147449147447148447148446147448148450147506146506000000000000000000000000000000000000147511147511146510146509147509147509148510148511147521147521146520146519146518147519148520000000148550147550147549000000000000000000000000000000147572146574147572147570147570149571149571149573146602145603147601000000000000147600148600149601000000148166148165000000000000000000000000000000000000146167148166148165000000000000000000000000148175147177147174146174147174000000150175148175000000000000147182146179148181149181148182148183000000000000000000000000000000148189148190148191000000000000000000000000000000148190148191000000148326000000000000000000000000000000000000149326148331147331146331147329149329149329149330149331147340000000147340147337149338150337149338148339147341146342147340000000147340148339148341148342147342146342146342147340147341148341148342148343147344146343146342146342147341148342148343149345148346148346147345147344147345000000149345148346148353146354146353147353147352148351148352148353147357147358147357147356148356148356148357150358149362148362148362148360149361150361150362150363148370146370146369147368149368150368150370150370147389146390147389147388147388150387148388149390148392146393146393147392147392148392148392148392147397146396146395146395148395149395148396148396148402147402147401146400148400149400149401149402)
 (.leaf 148416148416146414146414147413150413148414148416147417147418148417148416148416148416149417148417147431147430146430146429147429149428148430148431000000000000000000147438148438149436149439000000148460148460147459147458147458148457148458148459148461148460148460147459147458148458148459150460000000000000000000147464148464000000000000000000147512147512147511147510148510150508148510149512149557146557146556000000000000000000148556150558149560148560148560147559148559150558150560150560147565146565148563148562149562150562149564149565149569147567148568147567148567149567149568149569148573148573147572147571149571149571150573150574000000000000146575148573148573150574148575148576149180148178147179147177149178151177150179150180148182148182148181148178149180150180150181149182148188000000000000000000149186149184150187150188149327147328148326000000000000151326151327150327149345000000147345147344149345150343000000150345148353148353148352147352148351149351151352149353149361149361149360149359150359150359150360150361150361149361149361149360150360150360150361151362150375149375149374148372150373151372150373150374150375149376149375149374149373150373150374150375149376149376149376149375150375150374150375150376149381148381148380148379149379151377150378150381149383149383148382148381149381150381150382151383150387147388149386149384149384151385151386151387148392147392148391147389149390151388149390150392149402148402148401148400149400150400150401150402149406148408148407148406148405151405150405150406149411147410147409147409148409149409149409149411))
 (.node 1 (.leaf 148424148425147423148423149423150423150424149424149428147429147428147427149426150426150427150428149436148438148435148434148435150434150435150436000000000000000000000000149439151437151440151440149446148446148445000000000000000000000000150446148452148452148451148450149450149450149450149452000000000000148464149463000000000000000000000000149507147509000000000000000000000000000000000000150517149516147516148516150515150516150517151518000000000000148520147519149519150519150520000000150558148559149557147555148556151556151557151558000000000000000000000000148576151575149577000000149599147600000000000000000000000000000000000000000000149601148600147600149599000000000000150601151176148175150175000000000000000000000000000000150181149181149180148178150179152178152179151181149184148184148184148183150183152182152182150184149184149186148184148184149184152182150184152186151188148189148188149187150187150187151188150189150327149327149326000000151326000000152326151327150331149331149330149329149330151329151330152331150333148334149332149331150331152331152332152333149338149338150337150337150336150337150338152339150339148339149338150337150337150338152339152340150343149345148343148342151342152341152342150343150349149349148346149345150345150346150347150348150358150358148357148356150356150356151357150357151364150364150363150362151362152363152363152364151365149366150364150363151364152363152364152365150368150368150367149366150366152366152368152368150376149376150375150375150374152374152375151376150378148380149379149376150376151376152379152380)
 (.leaf 151383149383148382149381150381152381152382152383151387148388150387150386151386152387152387152387150394148392148392148392150392151392151393150394150402149402149401149400150400151400152401152402150406149406149405148405151405152405151405151406149411149412149411148409149409152409150410152412151414148414150413148412151412152413152413152414149420148419148419149417150419151419150420150420150423149423150421148419149420150420151422151423150428149428149427149426150426150426151427151428150432149432148432148431149431150431151431151432000000000000000000000000000000151440150442000000151447150447149446149445000000000000151446151447149453149453148452148451149450152450150451150453151454148454148454149453149453150453152453151455150458148457148456148456150456152455000000000000000000148459148458148457150458000000000000000000000000000000150460148459000000000000000000000000150508150508149507000000000000000000000000151508000000000000149520149519150519151519151520000000149565149566149565149564150564151562150564150565149566149567149566149565149564150564150565152566151575148575150574150573151572152573152574152574152177151177151176000000000000000000000000000000152178150179151177151176000000000000000000000000152182150183149182150181151181000000153181153182000000000000150193150192151192153192152193000000152326151327151326000000000000000000000000153327151330149330149330151329151328153328152329153330152353151352149351149351150350152350152351153353151353149353151352149351150351152351153353152353152358150359150358150357151357153357153357152359))))
 (.node 4 (.node 2 (.node 1 (.leaf 151362151362150361150360151360153359153361152362152366151366151365151364152364153364153365152365151373150373151372151372152371152371152372152373151388151388151387151387152387153387152387153389151393151392150392149390151391153389152392151393151400150400150399150398151398152398152399152400151407149409150406150405151405152405153406152407152413151414151412149411152412153411153412153413151419150419149417150417150416151416151417151418150420150420150419149417150417151417151418151419151422150422149420150420150420151419151420152422151424150424150423150422151422152422152423152424150426150426149426149425151424152424151426151427151429150431150428150427151427151427152428152429151437151437150436150435150436152435152436152437000000000000000000000000150442152441151443000000151447151447150446000000000000000000152446153449152455150456151454149453152453153453000000000000151508150508000000000000000000000000000000000000150516150516150515149514150513151513151514151515150517150517150516150515150514151514151515151516151518151518150517150516150516151515151516151518151558151557151556000000000000000000000000153557152559151558151557151556000000000000153557152559151562150564150561151561152561153561000000152562151567149568149567149566152566153566152566152569151575151575151575150573152574152573153574153577000000152179152178152177000000000000000000000000000000151181152179152178000000000000000000000000152188151188150187152186153184000000153185152188151189150190150189151188152188152188153189153190152193152193151192150191152191153191154192000000)
 (.leaf 153333152332152331151330153330153330153331153332152333152333152332152331152331153331153332153333151346150346151346150343152345153345153346153347152351150351150350151351151351152350153350153353153359151360152358150357153357154357153359153360152381152381152380152379153378154379154380153381151393150394150394151393151393152392152393154394152395150395150394150394151393154394154394154395153401152401151400151399152399153399153400154402152402152402152401151400152400153400154402154402152407151407151406151405152405153405154406153407153411150410152409151407152407153407153410153411153413152413152413152412153411154411154412154413151417150417150416151414152416154415154416154416152424151424151423151422152422154422154423153424152429151429151428151427151427152427152428153429152438151440151437150436152436152437153437153440152446151446000000000000000000000000000000153446153450150451152450152450153449154450000000000000000000151455152453150453152453000000000000000000152513150513150511150511151511152511152512152512151513150513150513150511151511152512152512154513000000000000151520151519152519154518153520000000153560152560152559151558153557154558152558000000153561152561151561152560153560000000000000000000153566150565150564151562152562154563152564153566153570151571152569151567152569154568154568154570000000000000000000152578153577153578000000000000000000153182153181000000000000000000000000000000000000153184153184152182000000000000000000000000153191152191151189151189153189154189153190154191152342151342152340152339152339153340153341153342))
 (.node 1 (.leaf 153357153357153355152353154354155354155354155357154367153368153367152365154365155367155367155368154379153378153377152375152375154377154378154379152383152383152382152381153381154381154382154383153407152407153406152405153405154405154406155408154411153411153411152410153410155410154411155411153430151431152429152428152428153428153429154430153434151435152433152432152433154432154433154436153442151443152441151440152441153441153442153442000000000000000000000000153445154445000000000000153446152446000000000000000000000000000000000000000000153450153449153449154448000000000000000000153513151514151513152513152512155512155514155515000000000000000000152520153520154520000000000000152558152559153557000000000000000000000000155558153575153577153574152573153573153574153574154575000000000000153577153577153575154575153577000000154185153185000000000000000000000000000000000000154191153191153190153189154189156188156189155191000000000000154192153191154191155191155192000000154329152330154328153327154327155327155328156329154331153331153330152330154329156329155330156331153334153333153332153331154331156331155332154333153339153338152338153336153337154337154338154339154344152342152342152340153341154340154342154344153350152350153350153349153348155347154349156349155354153356154354154353155354155354156354156354153361153361153360153359154359155357154359155361154374152375152373152372153372154372154373155374154379154379153378152375154377154377155378155379153397153396154395154394154394155394155395154396154402154402154402153400154400154400156401156402)
 (.leaf 155416154416154415000000155414156414156415156416154418154416154416154415155415156415156416156417154420154420154418154416154418156417155417154420154433153433152433152432153432154431155432155435154440153440153437152437153437154436154438154440153441152441152440153440154440154440154440154441153442152441152441152440153440154440154441000000000000000000000000153445154445156444154445000000000000154450154448153446000000000000000000000000154509152511000000000000000000000000000000000000155514154513152512152512154512155512155513155514154517154516154515153513155515155515156515155517154518154517154516154515155516156515155517156518000000154563154562000000000000000000000000000000155564152564154563154562000000000000000000000000154568154567153567153566154566000000155567154568154572152572153571154571155571155570155571155572156188154189155187154185000000000000000000157189000000000000154192154191155191157189156192000000155328154328154327154326155326000000000000156328155337154335154334153334154333156333156334155335154338153338153337154335155337155335155337155339154342153342153341153340154339155341155341155343154346153345153345154344154344155343155344155345155363153363154362153361155361157360157362157363155365154365154364153363155363157363157363155364154371153372153370154369155369156369156370155371154372153372153372153370155370156370155371155372154373153374153372153372154371155371155372155373155374154374153374153372154372155372155373156376154386154386153384154384155384157383156385156386154392153392153391153389155389155389155391155392)))
 (.node 2 (.node 1 (.leaf 154393000000153392153391154391155391155392155393155395154395154394154393154394155393155395155395156410155410155408154406156408157407157408157409000000155411154411155410156410157409157411157412156415155415155414000000156413157413157414157415154421154422154421154420154420157419155420155421155426153427153425153425154425155425156425156426155432154432153432154430155430156430156431157432154438153437153437154437154436157436157437155437155442153442153442153441154441156442156443157443000000000000154520154519155519156519000000000000000000154566155564000000000000000000000000000000155569155569154568153566155567156565156566157569155572154572154571155571155570157572157573157573155575154575153574153574156573157574156574156575000000000000000000153577155578000000000000000000157189155191156189156188157189000000157190158191000000000000000000155192156192157192000000000000156334154335154333155332155333156333158334157336156349156349154349155347155348156348157350156351157354156354155354154352156353157353158354158354157358156358156356156354157355157356158356158358155371154371155370155369156369157369158370156371156380154380155379155378155378157376156378156379155386154387154386154385156385157385156386156387155389154389154388154387155388156388156388156389157399156399156399154397157399158399158399158400157401156401154400156399157399158400157400158402157412000000156411156410157409158409158411158412157414156414156413000000157413158413158414158414157423154422154421154420155420158419156421157423155425154425155425154423156424157424157425156425)
 (.leaf 156426155426155425154425155425156425157425156426156431154431155430154429155430157429157430157431157435156435155435155432157432157432156434157436156442154441154440154440156440156440157441156441000000154445156444155442157443000000156444156445000000000000154445156444000000156444156445000000156510155512000000000000000000000000000000000000156519155519156518155517156517158516158517157519156566154568155567000000000000000000000000158566157574156573155572155571157573158572158573157573156575155575154575156573157574157573157574158576000000000000000000156192157192158192000000000000157216000000000000000000000000159213157214157216000000000000000000000000157216157216000000000000000000000000000000000000000000000000157218157219000000000000000000000000000000157218157219158221157331155332156330156329158330000000158330159331157340157340155339155337156338157338157339158340156351155352156349156348157350159349159350158352158356156357157355157354158354159354159355159357158361157362157360157359158359158358158361159360156364155364157363157363158361157362157363157364157369157368157368156367156366157366157367159369156378156379155378156377156376158375157377158379157382155382155380156380156379157379157380157381157385156385157383155382158383158383159383158385156387155386156386156385157385158385159384157386157392155393155392155391156390157391158391158392157395155395155395155393156394157394158394159395158399157399157399157398157398159396159398159398158403157404157403157401158402159402159403158403158404155404157404157403158403159403158403158404))
 (.node 1 (.leaf 158409157408157407155405158406159406158406159409158411157411157409157408158409159409159410158411158418157417156416157416158415159416159417159418158419155420157419157417158418159418159419159420157425156425156424157423157423159422158424158425156428156428155428156426156426158426157428157429157432157432156431156430157430157431157432159433157437155437157437157436158436159436158436159437000000000000000000000000156445157446157447000000000000000000000000000000000000158458159459157458157460000000000000000000000000157458159461158462157511155513156510000000000000000000000000158511158516157515156515155513157514158512158515158516158570157570157570157569157569159568159569159570158573157573157573157572158571158572159573000000158211000000000000000000000000158210160212160212000000000000000000000000000000158223158223000000000000000000000000000000000000000000000000158231158332156333157331157330158330000000160332159332158336157336158334156333158332159332160334160334157338156338157337157336158336160334160336159338157344156345156343156342157343158342158343158344157347157346156346156345157346158344158346158347158354158354157353156351158352159350158352159354157365156365156364157362157363158364158365158366157366156366156365156364157364158365158366158366157367156367156366156365157365158366158366160368158370158370157369158369159369160369160369160371159373158372156371158370158370160371159371160373159374158375158374158372159373160373159373159374157377157376156376158375159374159374158375158376157380156381156379156378158379158379159380158381)
 (.leaf 157386156387156386157385158385159383160385158386159387156388156387156386159384160385158386160387157390156390156389156388158389160388159390158390159403158403158402157400159400160400160401159402158404158404158403158403159403159402160403159404159413158413158412158411158411159411159412160413159419158419158418158417159417160417160418160420158426156426157425156425157425159424159425159426000000000000000000156445157446158446159447158448158453000000000000000000000000158452158453160454159459000000000000000000158457159457159458159459000000000000000000157460158462159462000000000000158512157514157511000000000000000000000000159512158516158516157515157514158512159512158514160516000000158566000000000000000000000000000000000000159573158572158571158570159570159571159572159573000000000000158576157574000000000000000000000000158191157190159189000000000000000000000000000000000000000000000000000000159193159193160194000000159208000000000000000000000000000000000000160208159215157214159213158211160212161212160212160215000000000000157216157214159215160215000000000000159217157218000000000000000000000000000000160217160222158222158221157219159220160218159220161221159224000000000000000000158223161223161224161225000000000000000000000000159227161225161226160229000000000000000000000000000000159229160229159230000000000000000000000000159234160234160235000000158339158340157339157338159338161336159338159339158340157341158340157339158339159338159339159340158344157346157344157343158343159342159344159344160350159350159349158347159349160349161349160351)))))))
 (.node 32 (.node 16 (.node 8 (.node 4 (.node 2 (.node 1 (.leaf 159350158352159350159349160350161349160351161351159357159357159355159354160354161354161356160357159361157362159360158361160360161360160360160361159369159369157367157366158366159367160368160369160388158389159387157386158386161385161387160387159396159396159395158394158394159394160395161396160400159400158399159398159398160398161399161400159411158411159410159409159409160409159410159410159422159422159420159419160420161420161421161421159424158424159422159422159422161421160423160424159427157428158426158425159425160425160426160427160437159437158436159436160435160435159436160437159438158440159437158436159436159436160437160438158443157443157443158442158440159441159442159443158443157443157443157443158442159442159443159444000000000000000000157447159447160445159448159449000000000000000000000000158448159448159449159449158450000000000000000000000000159449159449161451158452000000000000000000158450161451159451161452158453000000000000000000158450159451161452159452159457158457159455158453160454161454161455159457159459159459158458158457159457159457159457161458158514158515158512158511000000000000160512159513000000159569159568000000000000000000000000000000159571159570159569159568000000000000000000160571160190158192158191000000000000000000000000000000000000000000000000000000160194162192161195000000160208159208000000000000000000000000000000162210000000000000159216159215160215161215161216000000160218159220159217000000000000000000161217162219161223158223158223160222161221162222162223162223159230000000000000000000159229160229160230160232)
 (.leaf 160234159234158231000000159230160232161233161234000000000000000000000000000000160235160236160237000000000000000000000000000000160236160237000000161335160334160334159332161333000000162333162334161336159338160336160334161335162334162335162337159341158341158340158339159339160340160340160341159344158344158343158342159342160342160343160343160349159349158347158346160347162346162348162348160351160350160350159349160349162348162348162350160361159361159360160360161360162360162360162362161365158366158365158364160364162364162364162365160376158376158375159374161374162375162376162377161381158381159380158379160379162378162379162380161381159383160381158381161381162380162381162381161385158386160385159383160383160384161384161385159391159390158390159390160388162388160390160391159394158394158393158392159393160393160394160395161400160400160399159398160398162398161399161400159406159406159405159404159404161404160406160408159410159410159409159406159406160408160409160409159411159412159411159410159410160409160410162412160427159427159426159425160425161425161426161427160432159432159431159430159430160431160431160432159434159434159433159432160432160432160434160435159436159436160435159434159434160435160436160436160438159438160437159436159436160436161439161440159442158442158440159441159441160440160441162442160445159447158446158443159444162444162446161447161455160455160454158453159452161454162454162455000000000000159462159461160461161461000000000000160512159512000000000000000000000000000000161512160518160518160517160516161516161516000000000000))
 (.node 1 (.leaf 160518160517161517000000000000000000000000159573159572159571160571162570000000000000000000000000000000000000161195163194163195000000161217160217000000000000000000161216162216163219162223161222161221159220162220162221162222162223162224161224161223161222162223162223163224163224162225161225161224161223162223163224163224163225162225161225161225161224162224163224163225163226162227161226161225161225162225163225163226163227160230160229159229160229161229163228163229163231161235160235160234160233161233161233161234161235162333161334161333000000000000000000000000162333162337161336160335161335162334163334163335163337161337159338161336160335162335163335163337163338160342159342159341159340160340163339161341161342160343159342159342159341160341161341161342162344162357161357160357161356161356162356162357162358162360161360161359160357162358163358163359163360161367159367161365161364162364163364163365163366161369160369160368159367161367163366163367161369161372160372160371161371162371162372163373163373162375161374160373160372161372163373162373163374160384160383161382161381162381162381161383161384160392160391159391160389160390162389161391162393160403160403160402161401161401161402161402161403160406159405159404160403160403161403161405163406160409159410160409159406160408161408161408162410161418160418161417160416161416162416162417162418161427160427160426160425161425161425162426162427161429160429159430160427161427162427163429163430160436160435159434159434160434163434161435162437160440159441160438160437161439163438162440161440)
 (.leaf 161449159449159448160445161447163447163447162449161453161452159451161451162450162451163451162453161460161460161458159457162457163458163458162460161513159513160512000000000000000000000000162515000000160518161517161516161516162516000000000000000000000000000000000000161612000000000000000000000000162192000000000000000000000000000000000000161215161215161214161211161211162212162213162214161215161216161215161214161214162213162214162215162216000000000000161216161215162215164216164217162221162220162219161217163219164219164220163221162222162222162220162219163220164220163221163222163228161229162227162225163226164227164227164228163345162345160343160343162344163344164344164345163347162348162346162345163345164345164347164347163352161352162350162348162350164348164350164352162364162364162362162360163361164362164362164363162371162370161370161369161369164368162369162370163376162376162375162373162373164374164374164375163378162377162376162375163374164374164375164377163379162378162377162376163376164375164377164378163380162379162378162377163378164377164378163378163380162380162379162378163379164378163378163379162389160390162388161387162387162387163388163391161396160395160394160393161392162393162394162395161402161401161400161399161400162399162401162402161402160402161401161400161401162401162402164403162412162412160410160409162410162410163411162411162427161427161426161425161425162425163426163427162430160431161429160429163429163428163429163430163438161439160436160436162437163435164437162439163443162443162442160441163441163442164443164444)))
 (.node 2 (.node 1 (.leaf 163444162444162443162442163442164443164444164444163446162446162444162443163443164444164444164445163447161448161447162446163446164445164447164447162451162450161450161449162449164447163450164451162455162454161454161453162453163453164454164454000000000000161461161460162460000000000000000000000000000000161516161513162515000000000000000000162519000000000000000000000000000000000000163519000000000000000000000000162519163519162521000000000000000000000000000000161558000000162558163560000000000000162570000000000000000000000000000000162611000000000000000000000000000000162609164610000000163195163194000000000000000000000000000000000000000000163195163194000000000000000000000000000000000000000000000000163199000000000000000000000000000000000000163204000000000000163203163206162210161210162210161208162208163209163210163210164216161216161215161215162214163215164216165217163221162221163220163219164219164219164220163221164227163227163226163225164225164226164227164228164229163229163228163227164227164228164229164230163231163231163229163228164228164229164230163231162238000000000000162238162237163238163239164240000000000000000000000000162238163239164240163240163335163335163334162333163333000000164334165335164339163339163339163338164337165337165338165340164345163345162345162344163344165343164345165345164362163362163361163360164360165360164360165362164367163367163366163365164365164364165366165366164368161369163367163366164366165366165366165368163373163373162372162371162370163371165371164373163382161383162381162380162380163381163381164382)
 (.leaf 162385161385161384161383163382164382163384163385162387162387161387162387163385163385163387164389163388162388162387161387162387163387164389164390162398161396161396161396162395163395163396163398162401161401161400162398162398164398164399163400164406161408163406161405164406165405165405164406162412161413162412162411163411164411163412164413162419161419161418162418162418163418164419163419162424161424161423161422162422163422163423163424163431161432162430163430163429163429164430165433163435163434162432161432163431165433163433163434164435161435163434162432162433163433163434165434163442163441161440162440163440164440164441163442164443163442163441161440164441164441163442165443164447163447163447163446164445165444164447165447163519162519000000000000000000000000000000164519000000000000000000000000163560165559000000000000000000000000000000000000163607000000000000163608162609000000000000000000000000000000163608165609000000000000000000162611164610164609165611163611000000163199164197000000000000000000000000000000163209162208162208000000163206165205164207164209164218164217164216162215164216165216165217165218164219164219164217164216165217165217165218164219164224163224163223163222164222165222165223165224163241000000000000162238164240165240164241164241165340164339163338164337165337166337166339165339165342164341164341164339165340165339166341165341164355163355164353164352165352166352165352166354164357162356163356163355164355166354166355164357164359163359163358162356164357164357166358166358165364164364164363164362165362166363166364166365))
 (.node 1 (.leaf 164368162369164368164367165366166367166368166368164382163382163381162380163381165380164382164382163387162387163385162385163385164386164386166386164391163391163388162387164389164389165390164391164399162399162398162398163398164398164398165399165403164404164403162402164403166401166403166404165405164406164404164403165403166403166404166404164411163411162410164409165408166408166408166409164413162412162411163411164411166409164412164413163413162413162412162411163412164412164413164414163416162415163415162413163413164414165415164416163426162425162425162424163424164424164425164426164430163430163429163428164428164428165429165430164437162439164437163435164437166436164437164439164441164441163440162439164437164439165440166441164447164447164445164444165444166444166445166446164452163452164451163450164450166449165451166452000000000000000000163459164459000000000000000000164519163519000000000000000000000000000000165519164523000000162521163519164519165519164521165523000000000000000000000000164523165523000000000000165611162611164610162609165609165608165611000000165212164212163210163210165210165210165211166212164212163212164212163210164210165211166212165212165217165217164216163215165215166213166216166217165222164222163221164220165220166220166221166222166236165236165235163234164234165234166236166237165240164240163239163238165238166238166239166240164241163241163240164240165240166240166241166242166337165337165336165335000000000000000000167338166343165343165342165340166341167340167342167343166344164345165343165342165341167342167343167345)
 (.leaf 166348165347165346165345166345167345167346167346165373164373165371163371166370167370167370166373164391163391164391164390165390167388165391165392164392164393163391164391164391165391165392165393164394163393164393163391164391165392165393167394165395164395163393164393164392165393167394165394164395163395164395163393164394167394165394165396165400163400164399164398164398166398165400167400166408165409165408164406166408167406167408167409164424163424163423163422164422165421165423165424164425163425163424163423164422165423165424166426165430164430163429164428164428165428166429166430166434163434163433165433166432167432167432166433166441163442164441164440165440167439167440166442166444165444165444165443165443167442166444167444166456165456165455165454166454166455167455166457166458165457165456165455166455167455166457166458000000164459165457165456166456166457166458000000165519164519000000000000000000000000000000166519000000000000000000164523165523167522000000000000000000000000165559000000000000000000000000165560000000000000000000165559000000000000165560165561000000000000000000000000000000165560165561000000165613163611165611164609165611000000000000000000000000000000000000163611165613000000000000000000166218165218165217165216166216167216167217167218166234165234164231164231166232167230166233166233166237166236165236164234165234166234166235166236167345166345166344166343167343167344168345167346167354166355166354165352167352168353168354168355167356164357166355166354167353168354168355168356167360165360166358166358167357168357168357167360))))
 (.node 4 (.node 2 (.node 1 (.leaf 167362166363166361166360167360168361168361000000167365166365166365166364167363000000000000000000167368166368166367166366167366000000000000000000167370166371166370166368167369168369168370168370167375166376166374166373167373168373167373168376167376166377166376166376167375168376168376167376165378164378166377166376167376168376167376168378165381165380164380165378165378166379166380168382166381164382165380164380166379166380168382168382167385164386166384164382167383168382168385168385166386166386164386164386167385168385168386168387166398164398164398165398165396166396168398168398166401166401165400165399165400168401168401168402167406166408166406166404166404167404168406168408167409166409166408166408167408168408168409168410165415165415164414164413167412168411166413166414166430165430165429164428165428166429166429168431167432165434166432165430166430168431167431166433167437164437166436166434166434000000168437167438167446166446166445166444167444167445168446168446167447165448166446166445167445168446168446168447166451165451166449166448167448168449168449168451167453166453166452165451166451168451167452167453166519165519000000000000000000000000000000000000000000000000000000000000000000166562166563000000000000165611165608000000000000000000166609000000167218166218166217166216167216169216169217168218166228165228165228166225166225167225167227169227167228165229165228165228166226167227169227167228166242000000166242166241167241168241167242167242000000000000000000000000166242167242167243167244167344167343167342167340168341169340169341168344)
 (.leaf 168357167357167356167354168355169355169356168356168357166359167357167356168356169356168356169358168370167370167369167368000000000000000000000000168376167376167375167373167373169374169376169376168385167385167383166381168382169382169382168383168389167388167388166386168387169387169387169390166393165393165392165391167391169391169392169392166395165394167394165393166393169392167393168395166396165396165396165396166395169396167396168398167402166404166401167400168401169401168401168402168408167406166405166404167404168406169406168406167410167410167409167409168409168408169409168410166413165414167412167410167410168410169411169412166415165416165415165414166413169412167414167415166425166426165424165423166422167423167424167425168439167438167437167435168437169437168438169438168441167440167439167438168439169438169439168441168442166442167440167439168440169439168441168442168449167448167447167446168446168447168448169449168453166454167453166452167452168452169452169453000000000000166458166457167457168457000000000000000000167522167521166519000000000000000000000000000000000000167522167521000000000000000000000000167560165561165560000000000000000000000000168560166563000000000000165561167560168560167562169562000000000000000000000000167594168594168595000000168206167206166206000000000000000000170206169206168214166213166212166211168210169210168212170213169216167216166214166213168214170213170215170216167220167220167219167218168218169218168219169220168223167223167222167221168221169221169222169223168241167241168240166238167239168238168239169241))
 (.node 1 (.leaf 168249168250168251169345167346168345167344168344170343170344169344169348168349168347168346169347170346170347000000169350168350168350168349169348000000000000000000169352168352168351168350169350000000000000000000169356168356168355168354169354000000170355170356169371168371168370168370000000000000169370170372168378166379168378167376167377170377168377168378168383168385168382168382169382170382170383170384169387168387168386168385169386170385170386169386169387168388168387168386169386170386169386170388169391167391168389168388169387170388170389169391167396166396166395166395168395170395170395170396169399168398168398166396168398170398170398169398167419166419166418166417167416168417168418168419167422166422166420166420167420168420168421168423168428166429167427167426167427168427168427169428169438168439167438168437169437169437169438170438168447168446168446167445168445170444170445170446169452167453167452168451168451170450170450170453169455168455168454168453169453170454170454170455000000000000167458167457168457000000000000000000000000000000000000000000000000000000000000168550168560167560000000000000000000000000000000169560168591000000000000000000000000000000169590169591000000000000167595167594168594169594169595168596169206168206167206000000000000000000171206170206169218168218169217169216170216170216170217169218168219168219168218169217170217170217169218170219169222168222168221167220169220170220169221169222168231167231167230167228169228169228169230169231169235169237167234167234168234169233169234170235)
 (.leaf 168238167239168238169237169235170235170236171239168242167242167242168241169241171240170242169242168247000000000000167245168245169245169246169247000000000000000000000000000000169253169254000000170342169341169340000000000000000000000000000000000000169349169348169347170347000000000000000000000000169359169358168356000000000000000000000000000000000000169359169358000000000000000000000000170372169371168370000000000000000000170370171372170375169376169374169372170373171373171374000000170382169382169381169381170380171379170380171382170393167393169392169392170391171392171393171394169413167414169412169411169411169412171412171413168417167416168415167415168415170414169416169416168418167418167416168415168415169416169416169417168420167420167419167418168418169417169419169420168426167426167425167424168423169424169425169426169428168428168427167427168427169427170429000000169437169437169435169434170433170433171435170437170438169438168438169437169437170437170438170439170450169449169449168448169448171446170449170450000000000000000000000000000000171552169553169555169560168560000000000000000000000000000000000000169564169562167562168560169560000000171562169563168564167564169562167562170562171562169563171564000000000000000000167564168564171564169565000000169595168595168594168591169591171592169593169594000000000000000000000000168596169596171596000000170211168212169210168210169210170210171210172213171214170215170213168212170211172213171214171215170217170217170216170215171214171215170216171217169221169221169220168219170219171219171220171221)))
 (.node 2 (.node 1 (.leaf 169230168231169228169227171227172228172229170229169234169234168234168232169233170233170234170235169245168244169244168242169242170242170243170244169249168249168248168247169247170247170248170249169254000000000000168252169252170252170253170255000000170343170342000000000000000000000000000000171344170344170343170342000000000000000000000000000000170347170346169344171345000000000000000000170370169370000000000000000000000000000000000000171374170374170373170372171372000000000000000000000000170376170375170374171374000000000000000000171377168377170377170376000000000000000000000000170380170382170380168378171378000000171379172380171383170384170383170382171382171381171382172384171390170389170388169386170386171388171389171390171390169391170389170388171388171389171390172391171397170396170395170395170395172395171396171397171404170403170402169400169400170400171401171402170414168415169413169412171412171412172414172414169425168425168423168423169423170423170424170424170429168427168427168426169426170426170427170428000000169428168427168427169427170427170428170429170432169432170430169428000000170429170429171432171445170446170445170444171444172444172444172446171446169448170446170445171444172444172446172446171450170450170450169449170449171449172449172451000000000000000000000000169553172552170554171556000000000000000000000000000000170588170589170589171592169591169590000000000000170589170591172593171219170219169218170217171217172217171218172219172225171225170224169224170224171224171224172225170233169233169233169231171232172232172233173234)
 (.leaf 170234169233169233169233170231172233173234171233172240171240171239171239172239173238173239173239170242170242171240171239172239173239173239172242170248169248169247169246170247172245171247171249171251170251169249169248170248171249171250171250170253169253169252169251170251171251172251171252000000000000000000169254170255171255172256171256000000000000171345171344000000000000000000000000000000171377000000000000000000000000000000000000000000171378171377000000000000000000000000000000171389171388170386170385171387173386173388173388172395170395171394171393172392173392172394172395171399169399169399170397172398173398172398172399171409170409170408170407171407172407172408173410171418169419169417169416172416172416172417172418170423170423169420169420170420172419171421171423170427169427169426169425170424172424171426171426171437170437171435170433172434173434172434173437170438170439170438170437171437173437172438172439172446171446171445171444172444173444173445172446172451171450170450170449171449172449173450172451172454171454171454170453171453171453172454000000172552169553171552000000000000000000000000000000171564169565171564169563171564172564173564173565172594169593171592169591170591172592173592172594000000171596169596169594171595172595000000000000000000000000171596169596000000000000000000000000172205171205000000000000000000000000000000173205171210170210171210170208172209172209172210173209171214171214172213171210172212174211173213174213171214171215171214172213173213173213174213173215172219171219171218171217172217173217173218173219))
 (.node 1 (.leaf 172221171221171220171219172219173219172220172220173229172229172228171226172226172226173227173228173229170229172229172228173227173227173228174229173238172239172238172237173237173237173238174238173239172239172239172238173238173238174238174238172245170247170245170244171244172244172244173245171252170253170252170251171251172251173251172252173386171387172385172384172383174385173384173385172399171399172398172398173398173397173398174400172401171401170400171399172399174400174401173401172403171403171402171401172401173401173402174403172419170420171418172417172417172417173418173419171430170429170429170428172429174428172429173431172440172440170438170437172438174437174439174439000000172552000000000000000000000000000000000000000000000000000000171556173555174555172556172557000000000000000000000000171556172556172557000000172589170589170589170588171588172588172588173589172594172594172593170591172592174591173593173594173205172205000000000000000000000000000000173207173217172217171215171214173215174215174216174217173219172219171218172217173217174217174218174219173225172225171224171224172224175225173225175225173230172232173229173229173228173229174229174230173234173234172233172232173230174230173232174234172242171242172242173239172240173240173241173242172243171242171242172242172241173241173242173243173246171247172245171245172244173244174245174246172250171250171249171247173246174246173248173249172252171252172251171251172251173251173252173254172255172256171255171252172252173254174255173255000000000000000000171256172256173257174258000000)
 (.leaf 173381172381173380172379173379174379175380175381174387173388173386172384173384174386174387174388174390173389173388173388174387174388175388175389174395172396172395172394173394174394175395175396173408172406172405171404173406175405175406174406172412172411172410173410173409174409174410173411173416172416172415172414173414175414173415174416173420171421172419172418173418173419173419174420173426171426171426172424173424173424174425174426174439172439172438173437173437175437175438174439174555173555173554000000000000000000000000175555172556171556173555173554000000000000175555174555173586000000000000000000000000000000000000175586173589172589172588171588172588174587174588175590000000000000000000000000000000000000174204174205173207173205000000000000000000174204174205176205174206172207173205000000000000174205176205174206175213173213174211173209175210176210175212175213174227173227172226173225175225175225175226175227174230173230174229173228173229174229174229175230174236173236173235173234174234175234176235174236174246173246173245172244173244174244174245175246173252173251172251172250173251176250174251176252000000000000000000000000174258175258000000000000174379173379000000000000000000000000000000175379175396174395174395173394174394176393176394175396175401174401174400173398175399176399175399175400174403174403173402173401174401176401175402175403174410173410173409172408174408174408175409176411174417172417173416172415173415175415175416176417174420173420173419173418173419176419174420176420174426173426173425173424173424175424174425176427)))))
 (.node 8 (.node 4 (.node 2 (.node 1 (.leaf 174430172429174428173426174426176427175427175428173434173434000000173434173432174434174435176436175437173437173434000000173434174435176436176437174441174441174439174439174439176438176439176439175444173444174442174442175441176442176443176443175449174450174448174448175447176447176448176449000000000000174452174451174450000000000000000000173559000000000000172557174558174558175559174560174565173565174563000000000000000000000000000000174567000000173566173565174565000000000000175567174588172588172588173586175586174587175587175588174593173593174591173589175590175591175592174592176209173209174209174206174206175208177208177210175212175212175210173209176209177210177210176212175217174217174216174215176215177215177215175215175223173222174222174221175221176221177222176223175231173232174230174229174229176229176230177233174236174236174235174234175234177233177235177235175242173241173240173240174240177238175240176242174243173243173242173241175242176242175243176244175246174246174245173244174244177245177246177247176255173255174255173254175254177253177255177256000000000000174258173257175257177256177256175258175386174386175383175383175382175383175384177386176387174388174387174386175386177386177386177387176399175399175398174396176397177396177397176398175409174409174408174407176408176407177408177409175416174416173415175414175414176414176415177416176438174439175438175437176437176437177437177439176447175447175446175444176444176444177446177447176448175449175447175446176446177446177447177447174560000000173559174559175559177557176560175560)
 (.leaf 174567175567000000177568000000175588174588174587175586174587176586176587176590175592174592175590174588175588176590175591175592176205176205174205174204176203177203176205177207177210176210176209174209177208177209178209178210177214174214175213175212176212178211178212177214175215175217175216176215177215178215177216177217176220174220175219175218176218178218177219177220177222175222175221174220176220177220178221177222177224174224174223175223176223177223177224178225175229174229175227175226175226176227177227176228176230175230174229174229175229176228178231178231176244174243175243175242176242178240176242178243177245174244174244174243176244178243177245178246177250176249176248175246177247178247178248178250176251176250176249176248177248178248178250178251177252174251176250176249177250178250178251178251177253175254176252174251177252178251177253178253177256175257176255174255177255177255178256178256000000000000000000175258177256176258177259000000175383175382175381175380176380178381176382178383177387175389176387176386177386177385177386177387177394176394176393176392177392177393178393178394177394175396176394176393177393178393178394178395177408174408176408175406177407176406177407177408176415175415175414176414176413177413176414177415176417176417175416175415176415177415177416177417176422176420174420176419177419177418177421176421176425174425175424175423175424176424176424177425176428175428175427176427177427177426176428176430175432174432174430175428176428176430176430176431176432174434174432174432175432176431176432176434))
 (.node 1 (.leaf 175561000000174560174560176560176560177561176562000000000000000000000000000000177578176580176581176587175587174587175585175585178585178586178588175592175592175591175588176590177590178590178591175594175595175594174592176593177593178593176594000000000000000000000000176596178596176596000000000000000000000000000000000000000000177201177202176202175202000000000000000000177201177202177203177209177208175208176205177207179207178208178209178209177210177208175208178208178208178209179210178226177226177225177224178225178225179225178225177227175227175226177226178226178225179227178227178234177235177233177233178232179233179233179234178237177237177236177235178235179236179236179236178238177238177238177237178237179236178237178238177239175240177238177238178237178237178238179239178246177246177245175244177245179244179246179246178247177247177246177245178246179246179246178248178248177248177247177246178246179246178248179248178256177256177256177255177255179255179256178257177379176379000000000000000000000000177379179380176404175405176403176402176402178402177404177405176424177423175422176422176421177421177422177422176424175424177423175422177421177422177422177423176432175432175432175430176430178429177431000000177436176436176435176432176434177434178435178436177438177437176437176436177436178436177437177438176560176560177557000000000000000000000000177558176562175561175561175560177561177561178562178563000000000000000000177568000000000000000000000000177578000000000000000000000000000000177578179579177583175584175583000000176581178583179583179583)
 (.leaf 178591175592175591176590177590178590179590179592176594175594176594176593177593179593179593178595000000000000000000000000000000000000177602179603178203177203176202000000177202179201178203179205178208178208177207176205178206180206179207179208179213178212178211178210179211180211180211179213179222177222178221177220178220179220179221179222178225178225177224177223178223179223179224179225178227177227176227178226178225179227180228180228179233178232178231178231179230180230180231180233179233177234178232178231179231180231180233180233178240178240177239178238178238179238180239180241179244177245178243176242179243180243180243180244179251178251178251178250179249180249180250180252000000000000000000177259178259179259000000000000179382176382178381177379179380179379180380180381179384178384178383176382179382180381179382180384179385178385178384178383179382179382180384179384178387177387177386177385178385178385178386179389179392178391178390178390178390179390179391179392179392177393178391178390179391179391179392180392178402176402177401177400178400179400178401179402177405176406176404177403177404179403179404178405177417177416177415176414178414178415178415178416178420177418177417177416177417178416178418178419178427176428177426177425177425178426179426180427178429176430176430176428178427180427179428179429178436177436176434176434177434178434178434178435178564177564176562176562178562179562179563179564179583177582176581176581178582180580179581179582178586178586178585178585178584178585178586180587178590177590178588178586178586180587180588179588)))
 (.node 2 (.node 1 (.leaf 179593177593178591178590179590179591180591180593000000176596178596176594178595180594000000000000000000000000176596178596000000000000000000000000000000000000000000000000178605000000000000000000179199000000000000000000000000000000000000179201178203177203177202177201178200181201179201179202179207179207178206178203179205180205181206180207180215179216179214179213180214181214180215181215179222179222178221178220179220181219181220180222180230179230179229178227180228180229180230180231180231179231179230179229180229180230180231180232180246179246179244179243180243181244181245181246180250179250179249179248179247180247181250181251180257178257179256179255180254181254181254180257180257177258178257179256180255181254180257180258180380179381179380177379179378179379181380180380179391179391178390178387179389179389179390180391179400178400177399177398179398180398180399180400179404177405177404178402179402180402179403179404179413177414178412178411178411179411180412180413178415177416178414177414179413180413179415179416179423177422177421177420180420180419179421179422180424177422177422177421179420179421179422180424178434177434000000177431179432179432181432181434179563178563178562177561179561180559181561179562000000000000000000000000179567180567000000000000180580179581179579177578000000000000180578180579179588178590178589178586180587180588181588181589000000178605179603177602000000000000000000000000179202178203179201178200181201182200180202181204180207179207180206179205180205181205181206181207180224179224179223179222180222182221180223181224)
 (.leaf 180225179225179224179223179223180223181224181225181236180236180235180234181234182234182236182236181240180239179238179237181238181237181238182240181242180243180241180239181240182240181242182242000000000000000000179259179259180258180259180260000000000000000000000000000000180259180260181262179389179389178386178385180387181385181386181387181392179392179391179390179390180390180391182392180413179413178412178411179411181411182412182414180416178416178415178415179415181414181415181416180429179429179428180427180427181427181428182430180443179443179442179441180441181441181442181443180559179561180559000000000000000000000000000000180585178586178585179583180583180583182585182587181588180588180587178586180585182587182588181589000000000000180594180593181594181594181595000000181198000000000000000000000000000000000000182200180202179201181201179201182200183200183201182203181206181206180205179202181204183204181205182206182220181219180219181218182217182218182219182220182221180222181220181219182220182220183221183221180226180226180225180224181224181224182225182226181229180229180228180227181227182227181228183228180232180232180231180230180230181230182231181232181242181241181240181239181238183240183240183241000000000000000000000000181262183261000000000000000000000000000000000000000000000000181264181265000000000000000000000000000000181264181265181266000000000000000000000000000000181265181266000000181377000000000000000000000000000000000000182377180384180383180382180381181381181381181383181384180419180419180416179416181415182415181417181418))
 (.node 1 (.leaf 181423179422179421180419181421182421182422182423181428180428180427180426180426181426182427182428181434181434181432179432182430182432183432182434180436180436181435181434181434182434183435183436182439181439180439180438181438182438182439182440181443180443180442180441181441183440183442182443181563179562181561180559000000000000000000182563000000000000180567180566181566183565181566182568181579180579180578000000000000000000000000182579180583180583179582179582181583182581183584183585180592180592181590181589182589183589182589182590000000000000000000000000000000000000182598181599181623000000000000000000000000000000000000183624000000000000000000000000000000183626181627000000183204181204180202182200183201184200182202183204182208181208181207181206182206184206183207184208183214181215182214182213183213183213184214183215183216181216181215182214183213184214183215184216183222180223182221182220183221183221183222183223182227181227180226181225182225183225183226183227182233181233180232180230182231183231183232183233182235182234181234181233182233183233183234183235183240182240181238181237182239183237184240183241182245182245182243182242183242183243184243183245000000000000000000000000000000182267182268000000181384180384180384180383181383183382182384182385181385181385180384180384181384182384182385182386182390180390181387181386182386183386182388182390182397180398180397181395181395184396183396182397181417181416181415181414182414182414182415182416182418180419180419181416181417182416184418184420182428181428181427180426181426182426183427183428)
 (.leaf 182432182430182430181428182428183428183429184432182434181434000000182430182432184432184432182434183436180436181435181434182434182434183435184436182440182439181439181438182438183438183439183440000000000000000000181443182443000000000000000000182564180564181563181562000000000000182562182563182579181579181578000000000000000000000000183579182581181583182581181579182579183579184580184583183586182587182585180583183585184584184585184586183588181589182588182587183586184586184587184588183589182589181589182588183587184587184588184589182590180592182589182589183589184589184590183592000000000000000000000000181599183599182601184602183626000000182625181623183624183623184625184626182202182203183201183200184200000000184200184201183209183209182208182207183207185206185208185209184214183213183213183212184212184212185213185214182218182218182217183216184216184216184217184218183233182233181232182231183231185230185232183233184250183250183249182247184248184249184250184251182267000000181266181265183264183265183266183267182381181381183380181379183378000000185379185381183391181391182390182387182388183389183389183390183392182392181391182390182390183389183390184392183413182413182412182411183411183412184412184413182416181417182415182414182414184414183416185417184420182421182418181418184418184417183419185421183424182424182423182422182421183421183422184424183438182438183437183436184436184436185436184438183439182439182438183437184437185436184438184439000000000000182443183442184442000000000000000000000000000000000000000000183569184569000000000000))))
 (.node 4 (.node 2 (.node 1 (.leaf 184585183586183585183584184583185582185584185585184586183586183586183585184584185584185585185586000000000000183592182590183592184590000000000000182601000000181599182598182598184598183600185601184625183625183624000000000000000000000000000000184627181627183626183625184625000000000000000000000000000000000000000000000000000000183634183635000000000000000000000000000000184635183637000000184198183200000000000000000000000000000000000000184201182202184200184200000000000000185202185203185208184208183207184206185206186206186207186208184242184241183241184240185239186240186241186242183264182263182262182262183263184263184263184264000000000000000000000000183269184270000000000000000000000000000000000000000000000000184273000000185384182384183382183381183382185381184383186383183389182388183386182386183386186385184387186388184400182400183399182399184398184398185399185400184402182402183401182400184400185400184402184402183405182404182404182402184402184402184404184405183405183405182404182404183403184404184405184406184410183410183407182407183407184406184408185410184414182414183413182413184412184412185413185414183419184420184418182416185417185418186418184420183425182425183425183424184424184424184424184425184429183429183428183427184427185427185428185431000000000000000000184442000000000000000000000000183566183566183565182563184564186563185565185566184569183569184567182567185567185567186568184569000000000000000000000000000000184569184570000000185580184580183579000000000000000000000000186581185584184584184583184583185581000000000000186584)
 (.leaf 184590183592184590184589185589186589185589185592184598182598000000000000000000000000184598186599000000000000184602182601185601000000185601185602000000000000184627184626000000185625184627184627183634000000000000000000000000000000185632184633000000000000000000000000000000186638184639184640000000000000000000000000000000184639184640000000186203185203184201184200185202186200186203186204186206185206185204185203186203186204187204187205186209185209185209185208186208187207187209187210186213185214185213184212185212187212187213186214184216184216184215185214186213186214186215186216185219185219184218184217185217187216187217187218184228185229184228184227184226185227185228185228185234183234183233185232186231187231186233186234184236184236183234183234185234186234187235186236184250184250184249183247185248186248186249185249184251183252184251184250184250185249185250185251184255183255183255183253185254185252185254186256184270183269184269183267184267185268185268186270000000000000000000000000184273185274186275186276000000000000000000000000000000185276185277185278000000185379000000000000000000000000000000000000186385185385185384184382184383186382187384187384186385183386185385185384186383187384187384186385185392184392183390183389185390187389185391186392185400184400183400184398184398186398186399186400184408183407183407183405184406186405185407187408185418185417183416184414185414187415186415185416185428184428184427184426185426185427187428187429186432000000184432184429185431187429187431000000186436184436184435184434185434186434187434186436))
 (.node 1 (.leaf 185440184440184439184438185438186438186439186440185567185567183566184565185565186563185566185566186581185580000000000000000000000000000000000000000000185581185580000000000000000000000000000000000000000000000000184590185592186592000000000000185602000000184603185601000000000000187603186604185625000000000000000000000000000000000000187626185632000000000000000000000000000000000000186634186200185202000000000000000000186199187199187202187207186208186207186206187205188205188206188206187212185212186210186209187210187210188211187212186231186230185230184228185228186229186230186230186238186237186236184236186236187236187237187238185249184250185249185248186248187248187249186249185254184254185254184252185251186253187254186255186263184263184262184261185260186260186261186262185279000000000000000000185277187276186278186279000000000000000000000000185279186279186280186281186386184387186385186385187384187384187385188387187389185390186388184387186386188387188388188389185411184411184410185410185410186409186410186411185416185418185415185414187415187414186416186416187420184421185421184420186420186420188421188421187423184424186422184421187420188421188422188423186423184424184424186422187422188422188423187423185425184426184425184424186423187423186425187427186434185434186432184432187431000000187431187434186436186436184434185434186434187434188435188436186438185438186437186436186436188436187437187438186563185565186563000000000000000000000000000000000000000000000000184570186571188571000000000000000000000000000000185592186592000000000000000000)
 (.leaf 186599184598187599000000187598000000000000000000000000185602186604187604187605000000000000000000000000000000000000188629186630186631000000000000000000000000000000186630186631186632186640000000184640184639186638186638187639186640187199000000000000000000000000188197189198188199188203186204186203186200187202188200187202189203186246185246185245185245186244187244187245187246187248186248185246185245187244187245187246188248186251185251185250185249186249187249187250187251186256185256186256185254186255187254187255187256186258185258185257185256186256187256187257187258186259185259185258185257186257187257187258187259186260185260185259185258186258187258187259187260186275186275185274185272186272188271187273187274000000000000000000000000186280187279187281188283188390185391187389187387188388188387189389189389186409185410187408185407186406188406188407187409186411185412185411185411186410187411187411187412188421187420185420186420186420189418187420189421187429187428185427185425187427189425188428187429000000187429187428185427188428188428187429187429188439186439186438186437187437188437188438188439186567186568185566185566187566000000000000187567187569186569186568185566186566000000187567187569187605000000186604187603000000000000000000000000000000000000187626000000000000000000000000000000188629000000187628000000000000000000000000000000187632186634000000000000186631000000189632189633187635185636186636186635186634189634189635189636188197000000000000000000000000000000000000189197188200187202187199186199189198190198188199190202)))
 (.node 2 (.node 1 (.leaf 189205188204188203186203187202190202189204189205189211188211187210188209189209189209189210189211188217187217186215186214188213188215188216188217188229186229186227187227187227188226188227188229187240187240186238187238188238189238188239189240188262187262186262186261187262189260188262188264187265186266186264187262188262188264188265188265188267186266186266186264187263188265188265188266187269187270186269187268187267188268189269188269187279186280186279186278189277189277188279190280000000000000000000186281187281188282188283189284000000188382000000000000000000000000000000000000189389188389188388188387188386190387190387189388189413186414188413186411187412188412188412189413188429187429000000187429187429189427188429190431189433187434187431000000187431190431188432000000188438187438187437188436189435189436190436189438188570186569187569186567187567188568188569188570188571188571186569187569187569188569188570189571000000186630188629000000000000000000000000000000189638187639188637187635189636190636190636190638188199188199189198188197189197191198190198189199189210189210189209189208190208190208189209190210188226187227187225187224188225189225189226190227189232188232188231187229189230190230190231189232188252187251187250187249189250190250190251189251188256187256187255187254188254189254189255189256189257187258187257187256188256189256189256191259188272188271187271187270188270189270189271189273189275187276187275187274188274189274190274191275189383188383000000000000000000000000000000000000189385187385187384188383189383000000190384190385)
 (.leaf 188392187391188390189389189389189389189391189392188393187394187391188390188391189391189392189393188396188396187395187395188395189395189396189397188399187398187398188396188396189397189398189399188400188399187398187398188398189398189399189400188412188412187412187411188412190410189412189413190418189418188416188415188416191416189417191419189425189425189424189423189423191424191424190427000000188435189433187432188432191432000000189434189436189435188435189433000000000000189434190436000000000000188439188438189438190438000000000000000000000000000000188571189571190571000000000000000000189633189632000000000000000000000000000000190634189634189633189632000000000000000000000000190635189635189634189633000000000000000000000000190636189636189635189634190634000000000000000000190636188638189636189635190635000000000000191636188643188644187642187640190641190640191642189642189211189211189210189209189209190208190209191211189221188222189221188219189219190220190220190222189225188225188224189223189222190223190223190225190229188229188227188226190227190227191228191229190231188231189230188229190229191229190230191231190239188239189238188236190237190237190238190238189244188244188243188242189243190242190243191245189251188252189251189250190250191248190251190251190254188253188252188252189251190251190252190254189256188256188256189254189255191254190256190257191259189257188256188256189256190256190257191259189261189260188260189260190260191260191261190261190268188268188266188265190266190264190266190267189271188272188270188269189270190269190270191272))
 (.node 1 (.leaf 190278188279189277190276190276191276190278192279190282188282190280188279190278192279191281190282190385189385190384189383000000000000192384191385189406188406189404188403189404190403190405190406190410188409188408189406189407190407190408190410190414189414189413188412189413190413191413191414190422189422190421190421190420191420190421191422189427188428189425189424191424192425190426190427191429188429189427188428189427190427190428192430191432188432190431190431191429192430191432192432189434000000000000188432191432192432190433192435000000000000189571188570190570000000000000000000190598000000000000000000000000000000000000000000191640190640190639190638191637191637192639192640191642188642190641190640191640192640192641192642189647188647188646188644190644192645192646190646189649188649188648188647189647190646192649190648191199189199190198191198191197000000192198193199190202190203191201189199191199193199191202191202191207189206189206189204191205191203193206193207190220189219189219190218190217191218192219192220190230190230190229189228191228191228192229192230191234189235189234190234190234191233192235192236190243189244189243189241190240191241191242192244190248190247189247189246190246191245191247191248190269189268190268189266190266192265191267191268191276190276191275190274190274191275192275192276190283190283190282190281191281192281192282191282190285189285190285189284190283191284192285191286000000000000000000000000191288192288192289000000190390189389191389189388190387191387193389191390190403189404190402189402190402192401191403191404)
 (.leaf 190407189407189406190404190405192404191406191407190411190410189409190410190410191410192411191411191420190420190419190418191418191419193420193421192430191429191429190427190428192429193430000000190433000000191432191430191432192432193433193433000000000000190438190437191437192437000000000000000000190571190570191569000000000000000000000000000000000000000000000000000000000000191572000000192642189642191642190640192641193640193641192642000000000000000000189649190650192649191651193652000000000000000000000000000000193652191653193655000000000000191663000000000000000000000000000000192198191198191197000000000000000000000000000000193206192206191205191202192202192203192204194205191212190211191211190209191210192209192210192211191215190216190214190214191213192213192214192216191218190217191217190216191215192216193217193218191221190220190220190219192219193219193220193221191228191228190227190225192226193226193227192228191239190239190238190238191237192237192238192239191259191260191259190257192258193256192258192260191261190261191261191260191259192260193261193262192270190269190269190267191267192268193269193270191271191272190270190269192270193270192271193272192276191276191275190274191275193274192276194277192281191281192279190278192279193277193280192281000000000000191289191288192288193286192289000000191393190393191393192391191392192391192392192393191398190397190397190397191396192396192397192398192415191415191414191413191414193413193414192415192419191417191416191415192415192415192417193419192426190427190426192425192424194425194425193426))))))
 (.node 16 (.node 8 (.node 4 (.node 2 (.node 1 (.leaf 192430192430190428192429194429193430194431000000000000000000000000191572000000192573192574000000000000000000000000000000193574192576000000192636191636000000000000000000000000000000000000193640192640192639191637193638193637193638194639193641192642192641192640193640194639194642194642193647192646192645192644193644194643194645193647193648190646192646192645193646194645193647194648192649190650190648192649193649193649194650194650000000000000192661000000000000000000000000000000000000193199192198000000000000000000000000000000193201191202191202193199000000000000194200194201192208191207193207193206194205194206193207193207192214192215191213191212193213194211194214194215192233191233191232191231192231193231193232193233192246191245191245191245192244193243193245193246192248191247191245191245192245193245193246193247192251192251191251191250192250193250193251193252192271192271192270191268193269194269194270194271193277192279192276192275192276193275194276194277192282191282192282192281192281193280193281193281193286192288192285191286192285193285194287195287194386191385193385000000000000000000000000194385192390191390193389191387193387195387194388193390192391191392191390193389193388194388193390193391192396191396191395191394192394194393193394193395192413191413192413191411193410193411193412194414192419191419192419191416192417194416193418193419194422191422193421193420193419193420194420195423193426192426192425192424194425194424194425193426192437000000192437192436193436194436193437193438000000000000000000000000192437193438000000000000)
 (.leaf 193574000000000000000000192573000000000000000000000000000000000000000000000000195580193581194583194650193649193649193648194648195648195648195649193650191651192649193649194650195649195650194650000000191653193652191651193650194650193652194654000000000000000000193655000000000000000000000000194202192203193201193200194200000000195201195202193207194206194205192204193203194204195206194206194211193213192211192210194209195209195210195213194216192216192214192213194214195214194215194215194224192224192222192222194222195222195223195224193226193226193225192224194224195224195225195226194230192230193229192228194228195228194229194230193239192238192237192236193236194236194237194238193242193242192240192239193239195238194240194242193261193262193261192260194260195260195261194261194265193265192265193265193265194264194264195265193284193285193284192282193281196282194283196283194289192289193286192285194287195287195288194288194393192392192391192390193390195389194391194392193393192393192392192391193391194391194392194394194416192417192415193414193414195416194415195416195423194423194422193420194420194420194422195424193429193430194429193426193426194428194428195430193438192437193437193436194436195436195437195438195578000000000000192576194577000000000000000000194578000000000000000000195577000000000000000000194584000000000000000000193581194582194582195584194640194642194639193638194638195638196639196640195647193647194645194643195644195645195646196647000000000000000000000000194654195652000000000000195202194202194201194200000000000000000000197203))
 (.node 1 (.leaf 194215194215194214194211195213196211196214195214195223195223194222193220195221196221195222196223194231193231193230194230194230195229195230195231194234193234193233193232195233195231196234195234194236193236193236193234194234195234195235195236194237193237193236193236194235195235195236195236195249194249193247193246195245196245195247195248194249193248194249193247194247195247195248195249194256193256193255193255194254195254195255196257194274193274193273193273194272195272195273195274194276193275193275193274194274195274196274195275195277194277194276193275194276195275195276196277195284193285193284194284194283196282197284196284000000000000000000194290195290196290000000000000195389193390194388195387195387196387196388196389194398193398193396193395195395195396195397195398195410193408193408194408194407195407195408195410195418193419193418194416195416195417196417197419194582193581195580194578000000000000000000000000000000000000193585194584195584000000000000000000195638194638000000000000196637000000000000000000195646195646195644195642196644196644196645196646000000195648195648195647196647000000000000000000000000195650195649195648000000000000000000000000195652194654193652194650000000000000000000196652000000000000000000000000000000195655195655000000195210195209194209194209195209196209196209197211195218194217194216194215195214196214196216196218196223195223195222195221196221196221197222198222196225195225195224195223196223198222196224197225195231195233194231194230195230196229196231196233195239194240195238194238195238196238196239196240)
 (.leaf 195243194243194242194242196240196240196242196243196245195245194244194243195244196244197244197245195250194250194250194249195249197248196250196251196253194252194250194250195250196250196251196252195253194252194252194250195250196251196252196253195261194261195261195260196260197260197261196261196265195265194264194264195264197263196265196267196277195277194277194276195275197275198277198279197281196281196280196280197280197280197281197282197282196282196281196280197281197281197282197283196284195284196283194283196282198283198283198285196289194288195288195287196287197285197288197289196389195389194389195387196387197387197388197389195397194397195395194395195394196395197395196396195410194410195410194408195408197407196409197411196414195416195413194414195413196413196414197416196426194428196426196425000000196425196425196428196434195434195433194430196432197432196433196434195437195438195437195436195435196435196436197438000000196638196637000000000000000000000000000000197640196640196639195638000000000000000000000000196641195643196640196639000000000000000000198642000000000000000000000000195655196656000000000000197212196214196211196210196211197210199211197212197219195218195218195217196216197217198218197218196229195230195229196229196228197228197229198231196234195235195234196234196233197233197234197235197246195247196245195245197244197245198245198246197248195249195248195247197246198246198247199248197259196257195257196257197255198255197257198259197261195260196260196257197259198259198260197260197268195267196265195265196265198264197266197268)))
 (.node 2 (.node 1 (.leaf 197272196272195270195270197268197270198271197271197285196287196284197284198283199284199285199286000000196290196289196288197288199288000000000000197389196389196388196387197387199388199388198389198391196393197391196389197389198389198390198391196395195394195394196393198391198391197393198395196399195399195398195397196396198396197398197399196405195405195404195403196403197403197404197405196407195407195406195405196405197405197406197407196413196413196412195410197411198411197412197412196417195417195416196414197416198414198417197417196421196421197419196417197417198417197419197420196425000000196425197424197424198424199424197424196428195429196429196426196428199428197428198430198202197202000000000000000000000000000000000000198206196205197203197202198202000000199203198204197212197212197211196211197210198211199211198212198223198222197222196221197221198221198222198222197225196225197225196224197224198224198225198226197227197228197227196225197225198226199227199228197243196242196240196240197241198240198241198242198243196244196243196242197243198242198242199243198264196265197263196263197263198263198263198264197275196275196274196274198274199274200275199276197281197282197281197280197280198279198280199282197398196398196396197395197395198396199396198397198407197407196407196406197406199405198407199409198414197416196414196413197413199414198413199414198420196421196421198418197419199418199419200421197424196425196424197424198424200424200424199424197432197432198431196428198430200429200430198431197437197438196436196435198436198436199437199438)
 (.leaf 198644198642000000000000000000000000000000000000196645198644198644000000000000000000000000198654196656198654000000000000000000000000200655199203197204198202000000000000000000000000200203199208198208197205198206198204201205199206199207198208197207198208197205198206199206199207199209198210197210198210197207198208199209199209199210199216198214197214197212198212200212199214199214198217198218197217198214199216199214200217199218198233197233197233197232198231199231199232199233198238197238197237197236198236199236199237199238198246198245197245198243199243200243200244199245198246198246198245197245198245200244199245199246198253197253198252199251200249200249200250199252199254197253197253198252198252200250199252199254198259198260198259197257199258200258200259199259198260197261197260198260198259199259199259199260199270197270197268197268198268200266199268199269198271198271197270197268198268199268199269199270200275198275198274197272199273199273200274200275199284199284198283197281199282201281200283201284200287199288199286199285200286201286200287000000000000000000000000199288200287000000000000000000199394197395198395197393199392200392200393200394198400197400197399197398198397199397199399199400199410198410198407197407198407199406199408199409198413199414197413197412199413200413199414199414199419197420197419198417198418201417201419201421200424199424198424199423199423201422201423200423200428197428199428199427200426200425200428201428198433198434197432197432198431200430199432199434198436198436197434198434198433199434199434200436))
 (.node 1 (.leaf 199609000000200608000000000000000000000000000000000000199657200656000000000000000000200203199203000000000000000000000000000000000000199211198211198210199210199209202210200210201212200212198212199211198211199211201212200211201212199219198220198219198217199218200218201219200220200228199228199227198226199226200226201227201228199229199230199229199228200228201228200229200229199232198232198231198230199230201229201230200231200233199233198233198232199232200231200233200235199236198236198236199233200233200235201236200236199238199238198238198237199237201236200238200239200244198245199243198242199243200243201243201244200250198252200249199248200248201248200250200250199259198259199259199258200258201258200259200260199275199276200275199274200274201274200275200275199392199391199390199389200389200389200391201393200397198396199394198394200393201393200394200395199399198399198397199396199397200397200398200400199401198401198400198399199399200400200401200402199402198402198401198400199400200401200402200402199403198403198402198401199401200402200402201404199406198407199405198405199406200405201405200406199414198413199414199413200413200413200413200414201422199423200421199419201421202420202421202421200428199428200426199424201425202425202425201428200430198431200430200429201428202428202430202431200438199438199437198436200436202435202436202437000000000000198439199438200438202437202438201440000000000000200608000000000000000000000000000000000000200656200655000000000000000000000000000000000000198657200656200655000000000000000000000000)
 (.leaf 202205199206201205200203000000000000202204203205200218199218200217199214201216202214202217202218201221200221199219200219201219203219201220202221201222199222200221199219200220201220202221202222200226199226199224200224201224202224202225201226201230199231199230199229200229201229202229202230200248199248199246199245201247202245201248201248200259200259200258200255201257202257201258201258201264200264199264199263200263202262202263201264201266200266200265200264201264201264203265202268202271199270199270199269201270202270202271202272201280201280199278200278201276201276201278201280202282201281201281201280201280201280201281202282000000000000200287201286000000000000000000000000200389200389200388200387201387202387201388201389200391199391200389200388200388201388201389201390200398199397199397200397200395202395201397202399201405200405199406199403200404201404203405203406200410199411199409199408200409202407201409201410200410199411199411199409200409201409201410201411202420201421201419201417201417203418203419203419202421201422201422201421202420203419203420202421202435200436199434199434201434203433202435202436203205202205201204000000000000000000000000204205202209201209202207202205203205204205203206204209202211200210202210201209202209204209202209204210202214201216201213201212201213202213203213203216203219201219200218200217202217203217204218203219202223200223201222201221202221203221203222203223202230201230201229200229201229202229203229204230202232200233200231201230202230204230203231204233201236200236201236200235202235204233202236202236))))
 (.node 4 (.node 2 (.node 1 (.leaf 201241200241200241200239201239202239202240202241201242200243200241200241202239202240202241202242202245201247201244201243201244202243202244203245202252200250200250201248202248202250202250202252202257201257200255200253201253202253203254202255201258200259201258201257202257202255202258202258202263200264200263201263201263202262202262203263202270201270202269201266202268203268203269203270202275200276200275200275201274203273202275202277201278200278201276200276202275202277204278203279000000000000202285202284203284204284000000000000201388200388201387000000000000000000203387202388202407200409200406201405203406203405203406204408201414200414200413200413202411203411202413203415203420202421202420202419203419204419203419203420202422201422202421202421203420203420203421204423203429202428201428202425202425203425202427204428203431202431202430202428203429204428203431203432203432202432202431202430203430203431203432203433203433201434202432202431203431203432203433203434000000000000200440201440202440203440000000000000204205203205202204000000000000000000000000000000203206203208203205202204000000000000000000205206204218202218202217202214203216204214203217204218203223202223202222202221203221204221205221204223202228201228201227201227202227203226203227203228202240202239201239202239203237203238203239204241202253201253202252202251202250203251204252203252204266203265201264202263203263204263203264205265203270202270202269202268203268204266204269204270203281201281201280201278203279204279205279205280000000000000203284202283203283204283205283000000)
 (.leaf 202388201388202387000000000000000000204387203388203390201390201389201388202388203388203390203390202393201393201393201390203390203390203392203393203395201394201393201393202392203392203393204395203396201397202395201395202394203395203395203398203400202400202399201397203396203398204399205400204402202402202401202400203400205400203401204402204405201404201403202403203403204403204404204405203408201409202407203406203406205407205409205409203411202411201411201410204410205409205410205413202416201417202416201414203415204415205416203416204419203419203418201417203416203417204417204418203421202421203420203419203419204419203420204423000000000000000000000000000000000000000000203625000000000000000000000000000000203625203627000000203226202227202226203225203225204225205226204226205233204233204233203231204231204231204232205233204234202236204233204233204232204232205233206235203238203237202236202236205235206235206236204237203239202239203237202236203237206236204237204238203260202260202259202258203258204258204259204260203262202260202260202259203259204259204260204260204266203268204266203264203264205264205265205266205277204278202277202275204274205274204276205278205279203280203279204278205277205278205279205280000000000000204284203283204283000000000000000000203395202394203395202393203393206393204394204395205410202411204410203408205409206409206409205410203416202416203416203415204415206414205416206416205424204424204423203421204423204423206423206423204425203425203424204424205424206423205424205427203432203432203431204428205429206429204430204431))
 (.node 1 (.leaf 203432203433203432203431203430204430204431205433000000000000000000000000000000204628204629204630000000000000000000000000204643205643204645000000205206205206000000000000000000000000000000000000204209205210205208205206205206000000206207207208204219204219204218203217205217205215205217206219206235205235204234205233205233205234206234206235204237203238203237205235206235206235206236205237204241204242204241203239204238207238205240205242204244203245203243203243204242205243205244205245204252204252203251204248205248206248205250205251205257204255203255203254204253205254205255206257205266204266205265203264205264206264206265206266204270203270204270204269205269206269206270206271204273203273204273204270205272206272206273205273204276204277204274203273204274205273205275207276205389203390203388204387204387206387205388207390205400205400204399203398205398207397207399206400206405205405204405204404205404207404206405206406206408205409205407204405205405207406207407207408205410205410205409205409206409206408207410207411206414204415205413205413206413206413207412207414204419204418204417203417204417206416205418205420205420203420204419204418204419205420207421207421205429205429204428204425205427206427205428206429204436203436204436204435204435205435206436205437205440203440204439204438204438205438206439206440000000000000000000000000205459206457000000000000205620000000000000000000000000000000000000206620204623000000000000000000205620206620205622205623204624000000000000000000204622205622205623205624204624000000000000000000204623205623205624205625)
 (.leaf 204625203625000000000000204624205624205625205626204628203627203625000000204624205625205626205628204629000000000000203627204628205628207629205630206631000000000000000000204629205630205630000000205643204643000000000000000000000000000000207644205217204218205217204214206214207214206215206216205221205222205221205220205219206219207219206220205225204225204223204222205222206223207224207225205243204242204242204241205242206241206242206243205248204248204247204245205246206246206246206247205253204252204252204251205250206251206251206252205253204253204252204252205251206251206252206254206259204260204259204258205258206258206258207259205263204263204262204260205262206262206263206263206266205266205265205264206264206265206265207268206282205282205281205280206280208280207281207282205386000000000000000000000000000000000000206385205388205388204387205386206386206386206387206388207392206392206391205389207390208390208391208392207393206393206392206391207390208391208392208393205395204394206393206392207392208392208393206394205395204395204394206393207393208393206394208394207399204399205398204395206397207397208397208399206402205402205401205400206400208400207401207402207415205416206414206413207412208412208414208414205428205428205427205424205424207424206426207428205437204436204435204435205435206435208436208436206441205441205440205439206439207439206440207441000000000000205459000000000000207456206458207460000000206632206631204630205630208631000000000000000000000000206632206631000000000000000000000000206645000000204645205643207644206643207644206645)))
 (.node 2 (.node 1 (.leaf 208208207208206207000000000000000000209208209209207212205211207210207208208208209209208209207212206216205217205215206214207214207215207215207216206220205221205221205219206219209219207220207220206225205226205225206224207224209224207225207226207228205227206227205226206225207226207227207228206242205242205242205240206241208239207241207243206245205244205243205242206242207243207243207244206246205245205244205243206243207243207244209244206254205255205254205253206254207253207254208256206258205258205257206257206257207256207257207258206262205262206259206258206258207259207260208262206269206270206269206266207268208266208269207270207278205277207276205275208276208276208277207278000000000000206282206281207281208281208282000000206387206387206386205386206385208385207387209389207401206401206400207399208399209398209399209400207403206403206402206401207401209400209401208403208407207408207407207406208406209406208406209407208411207411207410206408207408207409208409209412208412206413207411207410207409208409209412209412208418205420205418206416207418209417209418208420208421207422207421207421208420209420209420208421207424205424206423206422206423208424209424209425207429206429205428206427206426209426207427207428000000000000000000206441207441208441000000000000207456000000000000000000000000000000208455209456000000000000000000000000207460208460000000000000000000000000000000000000000000207613207614000000206620000000000000000000000000000000000000207619207625205626205625205624208623209623208624209626208629205630207629205628207628209628209628209629)
 (.leaf 209209208208207207000000000000000000000000210209208209207211208208207207209208000000210209209209207215206213206213206212207212210211210213208213207215206215207214206213207215208213208215208216209224207224206223206220207220210221208222210224207228207228206226206225207226208226208227209228207232206231206230206230207230208229208231208232208247206247206246206246209246210245210247209247208250206251206251206248209248209248209251209252207263207263206263206263207263208262208263208264208266206265207263206263207263208263208264208265208269207269207268206265207266208266208267209269208271207271206269207269208269209269209270208270207278207278208277208276208276208276209277208277208280208280207279207278207278208277208278208280207387206386206385000000208384209384210385208386209393208392208391208390209390210390210390210391209395208394206394208393209394210393210394210395209400207401208400208399209398210398209400209401209406208406208406207405208405210405210405209405208409207409207408208407209407208408209408209409208417208415208414208414208413208414208415209417209418208418207418208415208417209417209418209419209425207424206424206423208424209424209425210425209430208430208430207429207428210428208429210430207432206432207432208430209430210430208431209433208440206440207439207438207438208438209439209440208455000000000000000000000000000000000000209455000000000000207460206458208459210458209460000000000000000000000000208631209630000000000000000000208645206645207644206643208643209643209644209645209216207216207215207215208215211215209216211216))
 (.node 1 (.leaf 210220207220209219209219210219210219210220211220209228207228207227207226208226209224209226209228208229207229208229207228209228209228210229209229208235207236207234208233208234209234209235209236208239207239208237207236208237209237209238209239209240207241208239207239208239209239209239210240210245209244207244207243209244211244211244211244210247207247209246209244210245211244210247211247209248209248208247207247210247211247209248210250208253207253208250207249209251210251210252210253209256208256207254207253209254210254209255209256208266207266208266207263208264210263209265210267208270208271207270208269209269209269210270211270209273207273208272207272208272209272209272211275208278207278207278208277209277210277210278210279000000000000208282208281209281209281210282000000209384208384000000000000000000000000000000210384210390209390209390209389209389210389211390211390210397209397209395209394210394211395211395211396210398209398209398209397210397211396211397211398210405208405209404208403209403211403210404210405209409208409207409209407208408210407209408210411210427207427209426209425210425211426210425211427210441208441208440208439209439211438211440210441210457209456208455000000000000210454209455211456000000000000000000208460209460000000000000000000208613207613000000000000000000210610209612209613000000000000000000207614209615210613210616000000000000000000000000000000208615210616000000209616209620207621207619000000000000000000210619210620209645208645208644208643209643210643210644210645208648000000000000208645209645210645209647209648)
 (.leaf 210213210211210211209209211210000000000000212212211213208213210213210211210213212212212213212214210219210219209216208216209216211215210217211219210223208222210221210220211220211221212221210222210224210224208222210221211221212221210222210224209230208229208229208229210229211229210230210230209237208237208235208235209235210234210236210237211242210241209240209239209239210239210240211243210252209252209251209248210250212248212250212251210258209258208258208258209257210256210257211258210260208262209261209258210258211258210260210260210263208264208263208262209262212262212263212264209269209269208267208266210267211267212268212268209272209272208270209270210270211270211271210271000000000000000000000000210282211282000000000000211390210390209390209389210389212388212389212390211391210391210390210390211390212390212391212392210402210402209401209400210400211400211401211402210406210405210405209404210404212403211405212405210407208408209406209405211406212406212406212408210415209417208415208414211414211415211416211417211423209424210422209420211421211422211423211424211427210428210427209425210425212427212427211427211429208429210428210427211427212427211427212429210433209433208431210430211429210431210431212432209434208435209434209433210433212432211434212434211438208438208437208436210436212435211437212437000000000000000000000000000000000000210453210454210459210458210457209455209455210455211456211459000000209460210458210457211456211456211459000000210610000000000000000000000000000000211609210610000000000000000000000000209616210616210618210620)))))
 (.node 8 (.node 4 (.node 2 (.node 1 (.leaf 209624209623208623209623210623211621211622210624209626209626209623208623209623211622210624210625000000000000000000000000000000210632211633000000210645209645209644209643210643210643211644211645210648000000208648208647209647211646210648210648211221211220210220210219211219213218212220212221210224209224209224210224210224212222211224211225211229210229209228209226211227211225212228211229210234209235209234209233210232211232212233211234210236209236209235209234210233212233211234211235210237209238209237209236210236211235211237211237210239209239209239209238210237211237211239212241212244211244211242210240210240212242213243213243211255209255210254210253210252211253212254211255211258210258209258209257210256211257211257212258211273211275209272209272210272211272211273213275210277210277211275211275211273213275213275213276211385210385210384000000211383211384212384212385212389211390210389211388212387212386212389213389212392211391211390211390212390213390213391213391212397211397211396211395212395213395213396213398211402210402210401210400211400212400212401212402212406211406210406210405211405213404212406213407211409210411209408210407212408213407213408213410212435210436209434209433211434213433213433213436211440211440211438211438212437213438213439000000000000000000210441211440211440000000000000000000000000000000000000000000000000000000211450211451000000000000000000210459211459212459000000000000211609000000000000000000000000000000212608212609211615210613209613209612211613213612211613211614210626209626209626209624210624212623211625211626)
 (.leaf 210627209627209626209626210625211625211626211627210628209629209627209626210626211626211627211628210630210630209629209627210627211627211628211629210630209631210630209629210628211628211629211630210632000000209631210630210630211629211630211632000000000000000000000000210632211632211633211633211642000000000000000000000000000000000000212642211646209647210645210644211644211644212645212646000000212213212212000000000000000000000000000000213214212215212214212213000000000000000000000000212216210217211215212215213214000000214216214216212222212221211221211220212220213218212220213222211229210230211229211228212228212226212229212230211230210230210230211229211229212229212230212230213243211243210240210239212241213241213242213243213247212247212246211244213245214245214245214246212248212248212247212247213247214246214247213248213251212251212250212248212248213248213249213250211253210252212251212250213250213249213250213251211257210256210256211256212256213254212256212256212258211258210257210256211257212256212258214259213264212263212262210260213261214261214262214263212266212265212264212263213264214263214263214265213267211267212265212264213264214263214265213267211273210273210272210271213270213270212272213274000000000000000000211282212282000000000000000000212389212388212387211385212385212385214386213389213393212393212392212391213391214391214392214392213394212394212393212392213391214392214392214394213395212395212394212393213393214392214394213396212402211402211401211400212400213400213401213402213408210409212408212406212406214408214408214409))
 (.node 1 (.leaf 211414211414211413211412212412213410212412214412211415211416211415211414211414214412212414213416212422211424211423211422211421212421213423212424213433211434212432210431212430213430214433214434213437211437212435212434213433214435214435214437211455210455210455210454211454212453212454212455212456211456210455210455211455212454212455214458000000000000000000211459212459213459000000000000212610210610211609000000212608213608212609213610211615210615211615210613211613212614212614212615211619210620210620210618212619212617212619213621212623210624211622211621211622212622213622214625213218212220213218212216214216215217215217215218212226211225211225211224213225215224215225213226212226212228211225211225212225215225213226213227212229211229212228211225212226213226213227213229212230211230211229211229212229213229213230213230213242212242212241211239213240215238213241214242214261213261213260212258214259215259215260215261214262212263213261213260214260215260215261215262000000000000212282211281213281214281000000000000213402212402212401212400213400215400215400214402214409213408213407212406214408214408215409215409213410212412213410213408214409215409215410215410212421211421211419211418213417214417213419213420213425212425212422211422213423214423213424213425000000213439213438213437214437000000000000000000000000000000000000213439000000000000000000000000213449211450000000000000000000000000214448213449000000000000000000212459213459214459000000000000213608212608000000000000000000000000214607214608213610212610212609212608213608214608214609215612)
 (.leaf 212614211613213612212610213610215612215612214612213617211617211615211614212614213615214616215616212622211622212622211619213621214621214622213622212632211633211632211630213631214629213631213632212634211633211633211632212632213631213632213633212634000000211633211633212632213632213633213634000000000000000000211633212634213633213634213636000000000000000000000000000000213636213636213637000000000000000000000000000000213636213637000000213645212645211644212643212643213643213644214645213649000000212648212647213647214647214648214649215223214222213222212220214221216219214221215223213230212231212230212230213230216230214230214231213231212231212231212230213230214230214231214232213235213235212234212234213233214234214235214236215238213240214238214236214236214237214237215238214251213251213250213249214249215249215250216251213254212254213254213251214251216251214253215255215259214259212258212256214258215258215259216259215260214260214259212258215259215259216259215259215262214263214262214261215261216260216262216263214267213267214265214263215264216264216265214266214271212272213270213269213270214270214271214273214275213275213274212272214271214273215274214274000000000000213281214280215280216280215281000000215398214399214397214396215397215397215398215399214404214404213403213402214402215402216403215404215410214410214409214408215409215409215410215411215414214412212412213410215410215412216413215414213424212424213423212421214422215420214423214423215434214435214434214433215432215433000000000000000000214437214435214435215434000000000000000000)))
 (.node 2 (.node 1 (.leaf 214448213448000000000000000000000000000000215448214457212455212454212453213453214454214455214457214459213459214458212455214457214457216458000000214609212609213608213607214607216608216608214609213617212617213617212615214616215616215617214617214618212619212617212617213617214617214618216618215626214626214625213622214624215624215625215626214629213631214628214627214627215627216630216630214645213645213644212643213643215643214644215645214649213649212648213647214647214647215648216651000000215217215217000000000000000000000000000000216218215218215217215217000000000000000000000000215229213229213227213226215227216225217228216229214230213230213230213229215229216229217229217231214233213232213231213230214231215232216233215233215238215238214237214236214237215237216237216240214242214243214242213241215241216241217242215242214243215244214243214242214242217242215242215243216244215244215244214243214242215242215243217244215250214250214249214248214248216248216249216250216257215256215256213254215255216255217256217257215258214258215256215256216256217256217257217258216259215259215259214258215258217258217258217259214267214268214267215264216265216264215266215267214268213269214268214267214266215266215267215268214270213269213269214268214267215267215268215269214275213276214275213274215274216274216275217276215279215278215277213276215277217276216278217279000000000000214281215280216280216280000000000000215383214383000000000000000000000000000000216383216391215391215391214388215390216390216391217391215394215396214393215393216392216392217393216394)
 (.leaf 215398215397215397215396215394216394216395216396216406214406214405214404215404217404217404216406214423214423214422213420214420215419216420215421214425214426213425213424214423217423215424215425000000215433215432215432216431216432217432000000215449213449214448000000000000000000215449217450214453213452213452213449215449217450215451215451215604214606000000000000000000000000000000216604214622213622214622214621215621216621216622216623215626215626214625214624215624216624216625215626215627214627214626215626000000215626216626216629215636213636213634213633216632216632215634215635000000000000000000000000000000215639215640215641215643213643213643214641214641215642216642216643215648214648214647213647215646215646215647216648000000000000000000000000215652217652000000000000000000216218000000000000000000000000000000000000216219216219216218000000000000000000000000217219215234214234214233214232216233217233216234216235215237214236214235214234215234216235216236216237216237214237214237214236215237216237216237216237217242214242215241215238216240217240217241217242216252214253216251215250216250217250217251218254217257216257216256215255216255217255218256217257217276214275214274215274216274218273217275217276216280216280215279215278216278217278217279217280216383215383000000000000000000000000000000000000216386214386216386214384217384218385217385218387216391215391215390214387216389218388217390217391216396215398215397215394216394217394217395217396217404215404216403215402216402217402217403217404216409215411215410215409215408218408217408217409))
 (.node 1 (.leaf 216414214415214415215414215414216413216413217414216416214416214416214415216414217414217415217416216420215420214420214418216418216419217419217420217428216428216426214425215425217424217427218428215430215430216429216428217428218428218428218429217431216431215430216429217429218428218429217431217456214457214455214454215453216453216455218456000000000000000000216458217457217458000000000000216604215604000000000000000000000000217603218605217617214617215617215616216616218615218616217616216623214622214621215621216621217621217622217623000000216630216630215627216629217629216630216630216632216632215631216630216630217630217631217632000000000000215652216651216651218650217650000000000000216714000000000000000000000000000000000000000000000000000000216717000000000000000000000000217220217222216219000000000000000000218219218220218223217223217223217222217220218220218223000000218225217225217224217223218223000000218223218224217230217229216229217228217228218228218229218230217242217242216241216240217240219240218241218242217247216247216246217245218245218245218246218247217251216251216250216249216250218249217251219253217257217257217256216255217255219255219255218257217268215267215266216264216264218264218265217266216269215269215268215267217268217266218269217269218273216274216271215270216271217271217272218274218277217276217276216275217275218275217276218277217280216280217279216278217278218278218279219280218385217384216383000000000000000000000000000000217392217391216391216390217390217390217390217391217397215398216396216395217395217396217396217399)
 (.leaf 217403216403216402215401217401218401218402218403216407216408216407216406217406218406219406218406217409216409217408215408218408218407218408218409216413215414216413216412217412219411219411219413217420216420215419216418216419217419217419218420218424215424217423215421217423219423218424219424217424215425215424217423218423218424219424219424218429215430217429217428218428219427218429219429000000217432216432217431217431000000000000000000217448215449000000000000000000000000000000218448217451215451215451217450218450218449219450219451216455215454215453215453218452218452217454217454217458217457217456215454216455217454219456218458000000000000217457217456218456219456218458000000217603000000000000000000000000000000218602218603216607215607215607215607217607218605219607218607216610216610216609216608216609218608217610217611217613216613216612216611217611217612218612218615217618216618216617217617217616218616218617219618217623216623216622216621217621218621218622218623217626216626215626215626216625217625218625218626217633215634216632215631217631218631218632218633217638216638216637215635217636219636218637217637217644215645216643216642216642217642218643218644217646215646215645215645217644218644218645217646217650216648215647215646217646217646217648218650217650217652216651216648217650218650218651219651218220217220217219000000000000000000220219220220218228217228217225218225218224220224218226220228218230217230217229217228218228220228218228218229219239216237216237216237218237219237219238220239218243218243217242217241218241219241219242219243))))
 (.node 4 (.node 2 (.node 1 (.leaf 218249216250218249217247218247218247219248220249219255218256217255218254219253220253219255220255218262216262217261217260218260219260220262220263218265216265216264216264217263220264218264219265218275217275218273216271217272218271219274218275217390217390218388218387218386220387218388220389217393217392000000217392217391219390218392220392218393217393217392000000217392218392220392219393218402217402217401216399218400220400219401219402218409217409217408218408218407220408218408219409218413216413216413216412219411220412220412219413218416217416217415217414217414218415219415218416217419216419217417217416218416218416218418220420218420217420217419216419217419220420220421220422218452218452217451217450219450219450219451219452000000000000000000217458218458000000000000000000218605217607218605217603218603219603219604219605218608216609216607216607219607219606219607219608218612216613217611216610217611219610219611220614217630216630216630217629217629218629218629218630217630217630216630216630217629218629218630220631218633217633217632217631218631220631220634220634217639216639217638216637218637220635218637218639217639216639216639216639217639218639219640218640217642216642216642216641217641219642218641218642218645216646217644216643218643218643219644220646000000000000000000000000000000218654219655000000220239219239218238218237219237220237220238221239220253219253219253217251219252220252221252221254219255219255219253219253220252221252221254221254219265218265218264217263220264220263220264220265218269217269218269217266219268220268219269219269)
 (.leaf 219274218274217272217271218270219271219272219273218275218275218274217272218271219272219273219275218278218278218277217276218275219275219276219277219390217391217390217390220389220388221390221390219393218393217393217392218392220391220392220395219403218403218402218401219401220401220402220403219409218409218408218407220408221408221409221410220412219411219411218409219409221410221411221411218415217414218413219413220412220412219413219414219415218415217414218413219413219413219414219415220424219424218424219423219423221422220424221424219429218429219427219427219427220427219428220429219452218452219451219450219450219450219451220452219457219456217454217454219455220453220454220457000000000000000000000000000000220598219600219601000000000000000000000000000000219600219601219602219618219618218617218616218617220616221618220620218637217637218637219636220635221635221635220636219644218644218643217642218642219642220643220644219647217648217646218645220646221645221646221647221220220219000000000000000000000000000000000000220220220220220219000000000000000000000000221220221229218229218228220228220228221228221229222229219234219234218232218231220232222231222232222233220237219237218235218234220235222235222236221237221239220239219238219237220237221237221238221239220245219245219244220243220243222244221244221245220249220249219248218247219247220248220249222251219269218269218269219268220268221266221267221268219271218270218269218269219269221268222269220270219272218271218270218269219270222269220270220271219275218275218275219274219273220274220274221276))
 (.node 1 (.leaf 218278220279000000000000000000221387218388220387000000000000000000221386222387219396219397219396219393220395221395220396220396220400220400218398218398219397220398221399221400221420220420218418218416220418222417222418222420221421220422220421220420221420222420221421222422221422219423220422220421221421221421222422222423220424219424219423220422221421222422222423222423000000000000000000219429220429221429000000000000220449219449219448000000000000220448221448220449219451219451219450219449220449220449220451222451220454219456219455219452220452220452221455222455000000000000000000219457220457221457000000000000220607219607219606219605219606221605221606220607220610219610219609219608219609222609220609221610220616218617219615219614220614221614221615222617219627218627218626218625219625221624220626220627000000220631218630218629220630221628220630221632221635220635220634220634220634221632221635222636220637218639218637220635221635222636222636221637219640218640219640218639220637221637220639220641219642218641219642218640219640220641220642220642221228220228220225220224220225221225221226222228222229221229221229220228221228222228223228221230221245220245220244220243222244223244222244223245221261220261219261219260222259222259222260221261221264220264220263220262220262221263221263222264221278219277219276219275221276222276223277222278000000000000220279219277221278222278000000000000221391220391221390221390221389223389222390222391222409221408220408220407221407222407221408221408221412220412221411221411000000221411221411222412)
 (.leaf 222422221421221421221420222420223420222421223422221428219428220427220426221426223426222427222428000000000000220429219428221428222428222429221430220448000000000000000000000000000000000000221447220449220449220448000000220448221447221449223450221457220457220454220453221455222453222456000000000000000000000000220457221457000000000000000000000000000000000000000000000000222592221594221595220596000000000000000000000000221594221595221596220598000000000000000000220596221596221597221598221606220606219606219605221604221605221605222606221610220610219610219609222609222608222609222610221612220614219612220610221610222610222611221612220619220620221618220616222617000000222617222618220622220621220620219620221619221620221621221622220624219624219624220621220622221622221623222625220630220631220630220627220628221628221629222631221637220637220636221635222636223636222636223637220642219642219641219640220641221641222642221642220644220643219642219642220642221642221643221643220644220644220643219642220642221643221643221644222650219651221649221647221647223648223650223650221654221654220653221652221652221652221652221653000000000000219656220654220654223654221656222658222220221220000000000000000000000000223219223220221230222229221229221228222228223228223229222229222237221237222236222235223235224234223236223237223253221253222252222251223251223251223252224252223255222256222256221255222255223255224255223255222271220271220270222269222269222270222270223273222276221276220274220274222274224273223275223276222278221278222277221276222276223276223277000000)))
 (.node 2 (.node 1 (.leaf 222391221391221390221389223389223389224390223391221395220396221395221394222394223392224393223396222399221399220398220396222397224397223398222399222407221407220406221405222405223405223406223407221411000000221411221410221409223408222410222411222412221412221411000000221411222411223411223414223416222415222414221412222412223414223415224416223418222417222416222415223416224416223417223418223419222418222417222416223416223417223418224418223422222422221421222420223420224419223421224422000000000000000000000000221430222430000000000000221452220452222451220451223450223450223451222452222456222455221455220452221452222452222454223456221597220597220596000000221595223594222596222596221599220598220598220597221597222596222598222599221599221599220598220598221598222598222599222601221601221601221600221599221599222601222602222602221605221604220604220603221604222603222604222605221605221605221604220604221604222604222605222606222611220612221610220609222609224610222610223611221632220632221632220630222631223631223632223633221643220642220642220642222642224641222642223644221652221652222650221648223650224649224650223652000000000000000000000000222658224657000000000000000000000000223222222220223220224220224221224222222225221226221225222225000000000000223225224227224231222232223230221230222229223229225231225231223237222237222236223235224234225235225236225237224245223245222244223244224244225244224244224245223247221247221247223245224245224245224246224249223251223251223249221247223247224249224250224251223259222259221258221258222257223257224258224259)
 (.leaf 223266222268221266222264223264223265224265224266222270222269221268221267222268223268224268223269223275223275222274222271223273224273223274223274223387222387000000000000000000000000000000000000223392222394222391222390224390225390224391224392223398221398222397221395223396224396225397225397223400222400222399221398223398225397224399224400223402221402222401222400223400224400224401224402223407222407222406222405223405224405224406224407223411221411221411221410222410223409224410223411224416223416222415222412223414225414225414224416224422223422222421223420224419224420224421224422224426223426222425222424223424225423224425225425000000000000000000222456223456000000000000000000223592222592221592000000222591223590224591225592222604221604221604221601222602223602223603224605222617222617221615222615222615224613223615224617223619221620222618222617224617224617224618224619222622221623221622221621222622224620223622225623222625221625222625221623222622225623223624223624223627221628221627222627222627223627223627223627223637223637222636223636224637225637225637225637224640221641223639223637223637225637225640225640224645221644221643221643223644225643225644224644223646221646221645221644224645224644224645224646224649223650223648221646223646224646225649225649222653221653221652221652223652224650224653223653000000223229223228222225224227000000224228226228223229222229223229223228223227224228226228226229225235224234223234224233224233225233225234226235225240223240223239223238224238225238225239226240224243223243223242223241224241225241225242225243))
 (.node 1 (.leaf 224246222247224245224244224244226244225245225246224251223251223250223247224249226247225250226251224259223259223258222257223257225257225258225259224266223266222265223264223265225264225265225266224268222268222268223266224266225266224268225270224395224393223392223391224391226392226393226394225397224397223396224393224395226394226396225397224410222411222410223408224408225408225409224410225427222427222426224426225425225426225427226427225453222452223451223450225450226450224452226454000000000000223456222454224455225455000000000000000000000000000000000000000000000000224588224589224591222591222591000000223589224590224590225591224593222593223592222591224591225591225592225593223602222602222602222601224601225599225600224602224610222610224610222609224608224609225609225610224613222615224613223611223612226612226612225613224620222622223619223618224618224619225619225620223631223631223630223627223627224629225630225631224635224634222633223633224633225633226634225635225641224641224640224639225640226639226640226640224641222642224641224640225640226640226640225643225649224650224649224648225649226647226648225649223654223654222653222653223653224653224654226656225658224657224656223654223654226656224657225658000000000000000000000000225658226659224659224660000000000000000000000000000000224659224660000000225221224221224220223220000000227219226220227222226235225235225234224233225233227233226234226235225238224238225237225236226236227236227237226238225239224239224238225237226237227237226238227239225246224246224245224244226244227245226245226246)
 (.leaf 226252223251224251224250225250227249227250226252225261223262223261224259225259225259226260226261225266224266224265223265225264226264226265226268224400224401224400224399225399227398225399227400224405224406224405224404224404227403225404225405224406224407224406224405224404225404225405225406225408223407224407224406224405225405225406225407224408224407223407224407224406225406225407225408225415225414225414223411225413226413227414226415225430224430225428225427226427227427226427226430000000000000223430224430225430226430000000000000225446223447000000000000000000000000000000000000225448223448223448223447225446000000227448227448226450225450223450223448225448227448227449226450000000000000000000224455225455226455000000000000224590223589000000000000224588227587226588225589225594223595224593225592225592226592226593226594224598224598224597224596225598227597226599225600225604223603223602223602225600225600225602226604224605224606224605223603225604226604226605000000225613224613224612223612226612226611226612226613225615224617223615224613225613226613227614226615226632223632223631223629225630227630227631226632225635224635224634224633225633227633227633227634225637225637224636224635225635227634227635227635226643225644225643224641225643227642227642227644226223000000226223225221227222000000000000000000227226000000226225000000226223000000228225000000227229226229226228224228227227000000227227228229226231225231226229226228227228227227228229227231227236226236226235225234226234227234228235227236226247226247225246225245226245228246227246227247)))))))))
 (.node 128 (.node 64 (.node 32 (.node 16 (.node 8 (.node 4 (.node 2 (.node 1 (.leaf 226265225265225264225263225263227263226264226265226268225270224268225266226268000000000000000000226394226393226392225390227390228390227393228393227394226394226393226392226391227393228393228395227397226397225397226396227395228395228397228398225404224404224404224403226403228402227404227405226412224410225409225408225409226409226410226412227414225414225413224410226412226412227413227414227424226424226422224422226422227422227423227424227427226427225427225426226426228425228427228427000000000000224430225430226430228429000000000000225453226454224452226450226450226450226452226453226455225455226454224452226451226452226453227455226588224589224588000000000000228587227587227588227597225598226596225594226594226594227595227596225600225599224598224598226599228597226599227601225608224607224607225607226605226605227606226607226608224609224607224607225607227606226607227610226615225615226614225613226613227613227614226617226618224619224617224617000000226617226617228619226626225626225625225624225625228625228626227628227646224645226645226643227644227643228644228646227647226647226647224645227646228646228646227647226649225649226648226647227647227647228649228649227220226220227219000000000000227219000000228220000000227223227222226220227220228220000000227223000000227227227226000000228225000000227226227227227242226242226241227240228240229240229241228242227247226247226246226245228246228245228246228247227251227250227249226247227247228247228248229251226260225259225258225258226257227258227259227260226261226260225259225258226259227259227260227260)
 (.leaf 226262226262226261226260226261227260227262227263227263225263226262226261226262227262227263229265228395227394226394226391227393229391228394229395228397227396227395227394228395229395228396229397228399225399227398227397228398229398229399229399228401227401227400225399228399229399229400229401228402226403227401227400228400229400229401229402227421227421225419225419227419228419228420228421227423226423226422227421227421228421228422228423000000000000000000226455227455000000000000000000227589225589226588227587227587228587228588229590228597226599227597226595227595227595228596228597227603225602225600225600227601228601228602228603226607225608225607226605226605227606227607228609226617226615227614226613227613227614227615228617227622225623225622227620227620228620229622228624228630227630227629226626227628229628228629228630228632226632227631227630228630228630229631229632228632227633226632227631228631229631229632229633227637226639227637227635228636229636229637229638228642227642227641227639227639228639229641229641228644227646227644227642227642229643229643228646227651225653227651226649228649228649228650228651227655225653225653225653227651228651227653228655000000000000000000000000226661228660227662000000228220227220227219000000227219229218000000228220227226000000228225000000000000000000000000000000228234227234228233226232228232228232228233229234229244227244227243227242228242229242229243230244228248227250227247227246228246229246228247230249228390228390226389000000000000000000229389229390229400228400228399228398229399230398229400230400))
 (.node 1 (.leaf 229404227404228402228401229401230401230402230402227406227407227406227405228405230404230405230406227409226409226408226408227407229406229407228408228415226415226415226414228413228414229414229417000000000000228429227427229429000000000000000000229450227449227448227447228449230448230449229449228452226453226452226450229452229452230452228454000000000000227455226453228452228454000000000000228588227588227587228587229586000000229587229588228593226594226593227591229592229591229592230593228597228597227596227595227595230595230596230598227614227613226612226612227612228612228613228614229626228625228624227622228624229622229623229626229628227628228626228625229626229626229627230628229631228631228630227629228629230628229630229631228646228644227643227642229643229642230644229646228651227651227650228649228649228650228650229651227655227656227655226653227653230653228654230654228660226661227659226660227659228659228659228660229218227219000000000000000000000000000000000000000000000000000000227223000000000000229224000000229230228230229228227227230227231227230229230230228232228232227230228230229230230230230231231232229236228236229235228234229234230234230235230236230241229241229240228239229239230239231240230241229246228246228245229245230245230244230245230246229254227255228253228252228253231253231254229254229259227258227256227256229257231255229257229259229259227260227259227258229259229259229259229261229263227262227260227260229259229261229261000000229391229391228390228389229389230389230390230391230395229395228394229391229391230391229393230395)
 (.leaf 230405229405228405229404230402230402231404231405229407227409227407227406230406230405230406230407228413227413228412227409229411230409229411229412228419228419227417228415229417230415229418229418228421228422228421228420228419229420230421230422230425229425227424228423229423230423230424230425229427229426229426229425230425230425231425000000229452229452229450229448230449000000230451000000228601228602228601229600230598231600231600231601228604228605228604228603229603231603230604229604228609227609228609227607229608230606231608231609228612227612228612227610229611230611230612229612228619228618228617000000228617230616229618229620228620228620228619228618228619229620229621229621229623228625228624229622229621229622230624230625230632229632229631228630229630231629230631231632229651228651228650228649228650231649231651231652228659228659227657227657228657231656229657231659230220228220000000229218000000231218231219231220231227230227000000000000000000232225230226232228230229230229230227000000230225230226232228230229230236229236229235229234230234232234231235231236230246229246229245230245230244231244232246231246231250229251230249228247230249231249231250232250230391229391229390229389230389231389231390231391230409229411228408229407230407231407231408231409229414228413228413228412229411231410230412230414229414229414228414228413229414230414230415230415229418228417229417229414229414230415230416231418230423229423228421228420230421231421231422231423000000230452229452229449230451000000000000000000230587229587000000000000000000000000000000000000)))
 (.node 2 (.node 1 (.leaf 231600230598230598230596230596231596231597231600230606228606228604228604230604231604232605232605230606229608228606228606230606232605232605230606229612228612228612229611230611232610230611232612229614228614228613228612229612232612230613232614231633230633230632229631230631231631232632232633231645229646230644229642230642232643232644231644230647229647230646230645230645231645232646232648231649228650230649229647230647232648232648232651231653228654230653229651231652232652232652231653231655230654228654230653231653232652231653232655229664229664230662228660230662231662231663230663231220230220230219000000231218232218232219232220232232231232230231230230231230233229232231233231231235230235230234231233232232233232233234232235231237230237230236230235231235232235233236233237231246230246230245230244231244233244233246233247232250231250230250230249231249233247233249233250231260229261229261229259232258232258232259232260231391230391230390230389231389000000232390232391231400231399231399230398231398233397232399233400231410229411230409230408231408231409232409233411230418229418229418230415230416233415231417231418231421230421229420229418230418231418231419231420231422230422230421229420231418231419231420233422231592229592230591230590231590232590232591233592231597230597230596230595231595231595232596232597000000231601231600231600231600233600233600231601232605229604230604231603232603232603232604232605232609231609231608230606230606232608232609232610232610230611231609231608232608232609232610233610231618229620229618230616230616233617233618232618)
 (.leaf 230623230624229622229621231622233621233622233623232652231652231651231649232651233650233652233652232652231653231652231651232651233652233652233653231658229657231656231655232655233656233656233657230660231659231659229657231658233657231659231659232220231220231219231218232218233218233219000000000000232223000000000000000000000000000000000000233226230226232225232223000000000000000000234226233243231244232243232242233242234242233243234242232254231254231253231252233253234253234253233254232260231260231259232258232258233260233261233262232394232394231391231390232390233390232392234394233395232395231395232394232394234394234394234395232401232400231400231399232399233397233400234400232406230406231405232405232404233404233405233406232409231409231408231407231408234409234409234410232411230412231410231409232409234410234410234412232425232424230424231423232423233423233424232425232591231591231590231589231589233589232590234591232594231594232593231592233592233592233593232594232597231597231596231595231595232596233596233597232605232605231604232603232603232603232604232604233612230613232612230611233612234611234612234613233615232615232614230613233612234613233615234615232615232615232615232614233615233615234615233615232618231618231617230616233617234617233617234618233622230623231622232621232621233619234622234622233628230628230626230625232626234626233627234628232631231631231630231629232629233629233630234631233632232633232632231631232631234631233632234632233643232644232643230642233643233641234643234643232646232646231645231644233644233644234646232646))
 (.node 1 (.leaf 232653231653232652232652233652234651233652234654231665231665230663231663231663233661232663234665000000000000230665231665231665234665232665000000233219232219232218000000000000000000234218234219232228233227233226000000000000234224235226233227234229231228233227233226234226235226233227234229233231232231233229231228234229234229235229235231233236233236232235233234234233235233235234235235234242233242233241233240234240235240235241235242234248233247233247233246233245234245234246234247234253231253233253231252234252234251234252234253233255231255232254231253234253234253234254234255233262232260232259232258233260234258233261233262233390232390000000000000000000000000000000234390233397232399233397232395234395234395235397234399233406232406231406232404233404233405233405234406233419231420231419231418233417233417234418234421233424232424232423233422233422234422234423234424233587000000000000000000000000000000000000235588233589231589232588000000233587235588235588235589233593232593233592232591234591234591234592234593233597232597232596231595232596235596235596234597234602231601233600233600233600234598235601234602233619232621232618233618233617235618234618235620234624233623233622233621234622234622235622234624234624233624233623233622234622235622234624235624234626232626233624233623234624234624235624235625233630233630232629233628234628235627234629234630234640233640233639233638234637234637235639234639233641233643233640233640234640234639234640235642233644233644233643233643234643235643235643235645234651233652233650233648233648235650235650235651)
 (.leaf 234658231659233657233656234656235656235657234657234224000000000000000000235223235224236224236226235234234234234233234232235232236233236233236234235258232258234257233255234255234256234256235257234258233260232258234257234256234256235257235258000000000000000000233262233262234262000000000000234392234394232392233390234390000000235391235392235400234400233400233397234399235399236399236400234406233406233405233404233405234405235405234406235409234410234409234409234409236408236408236409234414233414233413234412234412234413234413235414234418233418233417233416234416234417235417235420234423233423233422233419234421236420236422236423234593233593233592234591234591236591236593236594234598233600233597233596235596235596235597235598233606232606233606232604234605236604236605234606234610233610234608233606233606234607234607236609235612234611233611233610234610236609236610235612235615233615234613234612235612236612236613236614235627234628233627234626235625236625235627236627235647232646234646233644235645235644235645236646235654233656234654233652235653236653236654236654000000000000232665234665234665235665234666000000234219234218000000000000000000000000236217235218000000235222235221234219235219235219237221237223235224235223235222235221235220237221237223237223236224235224235223235222000000237223237223236225236236235236235235235234236234237234237235237236236237235237235236235235236235237235237236237237236238234239235237235236236236237236237237237238234254234253234252234251234252236251237253235253235254234254234253234252234253237253235253235256))))
 (.node 4 (.node 2 (.node 1 (.leaf 234256234256234255234254235254235256235256237257235259233261234258235258235257235257236258236259235392234392234391234390000000000000000000237392235399234399235397234395236395237395237397237398235405233405233405234403234403236403237405237405235414234414233413234412234413236412236413236414234417234416233416234414235414236414235416235417236422234422234421234418235420237420236421237421000000000000233424234424235424236424236425000000236595235596235595234593236594236593237595236595235598234598234597235596235596236596236599236600235603235603234602235601236600236601237601237602235618235617235616235615236615236616237616237617235622234622235620234618235620236620236621237621235627235626235625235624236624237624236624236627235631234631234630234629235629236629236630236631236653235653235652235651236651237651237652237653236654235654235653235652236652237652237653237654235659234659234658234657236657236657237658237659000000000000000000235665234666235666236667000000236217235217000000000000000000000000000000237217237239236239236238236237237237238237238238238238237240236240236239236238237238238238238238238240237243236243235242236242237241238241238242238244237246236245236245236243237243238244238244238246237247234248236247236245237246238246238247237247236251234252234251235249236249236249236250236251236259235259235258235257235257237257237258238260000000000000000000234262236262000000000000000000237395236395236394236394236393236394237394237395237402236401236400236400236399236400236400237401236410235410236409236408237409237408238409237410)
 (.leaf 236414235414234413234413236412236412237413238415236417235417234417234417235416237415238417237419236424235424236423236422237421238422237423237424236588235588000000000000000000000000000000000000237592236591236591234590237590237589237590238592237595235596236594236593237593237592238594237594236596235596236595235596237595237594238596237598237606234606236605236604237604238605237606237607236610236609234607234607236608237608237609238609237615236614236613236612237611238612238613238614236631235631235630235629236629238628237630237631236641235641235640235639237640238639237640237641235643235643235642235641236641237641236643238644237649236650236649235647237648238648238648238649236660236660235659235658237658237658237659237660236663235665235662234662237661237661238662238665000000000000000000000000236667237667000000000000237219235219235218236217237217238217237219239221238222237223237221235219237219239221239221239223236225236225237223237223238222239223239223238225237230237230237228000000238228000000000000238230238231237232237231237230237230238230238231000000237233237233237232237231238231238231000000238233237248236248237247236246238247238246238247238248237253235253237253236251236251239251239253238253238260236259236258235257237257238257237259000000238406237405237405236403237403237404238404239405236412236412235412236410237410237411237412237412237413236413236412235412237411237412237412239414237415235416236414236413237413239414238414239416237421236421237420236417237419238417237420237421000000236425236424236423237423000000000000000000))
 (.node 1 (.leaf 236600236599236596237598238598238599237599238618237618237617237616238615238615238618239618236631236632236631236630237630239628237631237631236634000000236634236633237633238633238634238635237641236641236640237640238639238639239641239641238645237646237645235643238644239644239644238645238648237649237648236646238647238646239648239648000000000000236667235666237666239665000000000000238217237217000000000000000000000000000000239217239221238221237219237218237219239218238220240221239223238223238222238221239221240221239223240223238227238226238225236225238225239223239226000000000000238231238231237230238230239230000000238231238244238244238244238242238242239242240244240245238257237257238256238256239256239257240257239257000000000000238260237258237259239258000000000000238393236394000000000000000000000000000000000000237398237397237396237395237396239395238397238397237401236400236400236399237398240398238400239402238417237419238417237415239416240416240416240419238590237590237589000000000000000000000000239590238598237598238596237594239595240594239595240597237599000000236599237598238598240597240598238599239628237630238628237626239627240627240628239628000000238639238639237636238638239636238639239640239644238645238644236643238644239644000000239644239648238648238647238645238645238646239648240648238649238649238648238648239648240648240648240650238662238662237661237660237661238660238661239662239218237219238217000000000000000000241217239218239229000000000000238227000000239226239227240229240234238235239234238233239233240233241234241235)
 (.leaf 240240239240239239239238240238241238241239241240239242238242239241238240239240240240240241241244238248238248238247238246238246240246239248239248239253239251239250239249239249239250240252239253239258237259238257239257240257241257241258000000238397238396237396237395239394240394239396241397239403237404238402238401238402239402240402240403239411237412237411238409238410240409239411241411240416239417239416238414240414240414240415241418000000000000238422237421239421240421000000000000239590238590238589000000000000000000000000241592238602238602238601237599238599241598239600239602239604238604239603238602238602239602239602241604240628239628239627239626240626240627241627241628238633238633237631237631239631241630240632240633238639238639238638238635238635239636239637240639239641239641239641238639238639240639240640240641240654239654239653239653239652239652239653240654239659238659238658238657239657240657240658240659238661237662237661238659239659240659241661239661239662238662237662237661238660241661239661241664239666239665238665238662239662241664239664239664239218239218239217000000000000241216241217240218239227000000000000239226240226242225240226241228241234240233239233238231240232241232241233241234240237239237240235240234241235241235000000241237241238240238239238239237240237241237241238242238240254240254239253239250240252241250241253241254240394239394000000000000000000000000000000000000241398240398238397238397241397242397242397241398240403239403239402238402239402240402240403240403240421239421240420240419241418242418242420000000)))
 (.node 2 (.node 1 (.leaf 239422239421240420241420242420000000000000240594238593240592239590241592241590242591241592241598238599240598240597241597242596241597241598241609240609240608240608240608242608241609242609241615238615240614238612241613242613242614241616240619240618239618240617241616242617242617241619240622240621240621240620241619242619241621242621241625239625240623240622241622242622242622241625240634238634238633239632240632241630241633241634240641239641239640238639240639241639241640240643240645238646239644000000239644241643240645242647240226239226240226241225242224243224243225243225240229239230239229240229240228241228241229242231241234241234240233240232241232242232242233241233242238241238240238240237241237242237242238243238242244241244241244240241241243242241243243242243241247239248240246240245240245242245242246243248241250240252239250239248240250243248241250243251241255240255240254239253241253241253241253241254000000000000241258241257242257242256000000000000241395239396240394000000000000000000000000242395242397241398241397239396241395242395243396242397241407240407240406239406240406241406242406242409241414240414241413240412241412241414241414243416242418241418241418240415241417242417242418243419242420241420241418241418242418242418243419000000241590241592000000000000000000000000000000242590241604241604239602239602241602242600241602242604242612241612241611240609242611243610243611243612242613241613241612241611242611243611243612242612242614241614241613241612242612243612242612242615242617241616241615241614242614242615242616243616)
 (.leaf 242626240627241625241625241625242625243625243626241630240632241630241628241628243629242629242632241635241635240634240633241633242633243633243635241636239637239636241635242635243635242635242638241643239644239644240641240643242641241643243644240653239652240651240650240651241651241652241653241661239661241661240659240659241660241660241661000000239664239664241664241664241664242665000000242217241217241216000000000000000000243216243217242233241233241232240229242231243231243232243233243238242238241238241237242237243237244238244238242246240246240245241244242244243244243245242246242395241395000000000000000000000000000000000000242398241398242397242397243396243396243397244398242406240407240406241406242406244406244407244407241409240409241407240407242406244407242408244409243419242418242418241417242417244417243418000000000000000000000000242420000000000000000000000000242596242596242594241592242592243592243593244594241599241598241597242596242596243596242598242599243600241599241598241597241598242598242599244600242600241602241599241598241599242599244600244601242606241606241605241604242604243604000000243604243627242627242626242625243625244625244625244627241639240639241639241636242638243638242639242639241652240652240651241649241649243649243650242651241656240656240656240655241654242655242656242657241661241661241660240659241660244660242661244661000000000000000000241665242665243665000000000000243221242221243219242217243217244217244220243220243233242233242232242231243231244231244232244233244238243238242238242237243237244237244238245238))
 (.node 1 (.leaf 243245242245242244242243243243244243244244244245244249243248243248242246242246245246245248245248244252241253243251241250244250245249245252245253244255242256241254241253243254244254244255000000242400241400241400242398244398244398243400243401242402242401241400241400242400243400243401243401243403243403243403242401242402243401245403245404244411243410243410241409244409245409244411245411244415243416241414241414243414244414244415245416243418242418242417243416244415245416245416000000000000000000243419242418243418000000000000000000243596242596243595242596244594244594243595244596243601241602242600243600244600244601000000244603243607242607242606242605000000244603243605245607243609243609242608242607243607245607244608245608000000243620243618243617000000000000000000000000242639241639241639242638243638243638243639243639242641241640242639241639242639243639243640243641243641242641241640242639242640243640243641245642244645243646243644241643244644245644245644244644243647242647243646243646244645244645244646244647242654241653241653241652242651244651243653243654243658241660243658241656242657244656244657244658000000000000242665241664243664245663000000000000244217243217243216000000000000000000245216245217245221242221243221243220244220245218245221245222243229243228242228243228244226245226244228244229244231243231243228242228243228244228244229246231244233243233243232243231244231246231245232245233244237243237244235242234244235245235245236245237245238244238244238243237244237245237245238245239244245243245243244243243244243245243246244246245)
 (.leaf 244254243254244252243250245252246252245253245254243398243397243396000000000000000000245396244397243400242400244398243397243398244397244398244399245407244407244407244406245405245406246407246407244409242408244407244407245406246407246407245409244411244411244409242408244409245409246409246410244415244414243414244411244413246413246413246414244597242598243596243595243595244596245596245599244603000000243604243601244603244601244603246604245609244609243609243608244608246608000000000000000000244614244613244612000000000000000000000000000000244615244614244613000000000000000000000000000000000000244615244614000000000000000000000000000000244625244624000000000000000000000000000000244629242630243628244627244627000000245628246630243633243634242632243632244632246631244632000000243638243638243635244635245635000000244636244638243639242639242639243638243638244638245639246640244651242651243650243649245650246649246651246652243655242656242655242654243654246653246654244655244658243658243657242657244656244657244657245658244662242661244660243658244658245658244660246661245218244220244217000000245216247217247218246218245222245221243220244220245218246218245220246222245226244226243226245225246225247226247226246226246234245234244233244232245232246232246233246234246241245241245240245239246239246240247241246240246243245243245242245241246241246240246243247243245254244254245253245252246252246252246253245254244397243398243397000000000000000000245397247398244399243400244398243398244397247398245399247400245406245405245404245403246403247403246403247404)))))
 (.node 8 (.node 4 (.node 2 (.node 1 (.leaf 246407245406245405245404245403246403247404246405245592243593243591000000000000000000246591247593245596244596243595244594244594246594247597247597244601244601245599244597245599247598247600247601246608244608245607243605245606246606247606246606000000000000245610245609000000000000000000000000245628244628244627000000000000000000000000000000246640243640243639243639245639247639247639247640246643245644245642243641246641247641247641247643245645244645244644245644246644247644246644247646246651243650245650244648246649246648246649247650246218245218245217245216247217247216247217247218246226245226244226246225247226247226248226247226246233245233245232246231247231248231247232247233246240246239245239245238246238247238246239246239246248245248245247245246246246246247246247247250246253245253246252245249246251247251246252246253246403246403246401244399247400247401247402247403246405246407245406245403246403247403000000246405246591245591000000000000000000000000248590247591247597244596244594244594246593247593246595248596246606245606246604244603246604000000000000000000246606246608245607245606246606000000000000000000246631244632246631246630247630000000247630247633000000000000246634000000247633000000000000000000247641246643246641246640247640248639247640247641245658245658244657244657246656246656247657246658000000245663246661244660246661247661247662000000246222246223246222245220247221249221247221248223247226247226247225246224247224248224248225248226248230247230247228246226247226248226248229248230247232246232247231247230248230248230248231248232)
 (.leaf 247233246233246232247231248231248231248232249232246239246239246238245236247237248237249237248239246252246252246251246248247250248248247251247252000000245254246253246252246252247252000000000000247396245397000000000000000000000000000000000000248400245399247398245397247396000000000000248400247402247402247400245399248400248400248401000000000000246414246413247412000000000000000000000000248599247598247597247597248596248597000000000000000000247600247598247597248598000000000000000000000000247602247602247601000000000000000000000000000000246604247602247602000000000000000000000000000000000000247633246631247633000000000000000000247637247639246636246635246636000000248636248639248639247640247639247639247637248639249639248639247647246647246646247646247645248645249646248647246658245658245658246656246656247657247657247658000000000000246662246661247661247661247661000000248218247218247217247216248216249216248217249218248225248225247224246222248223249223249224250224248231248231248230247229248229249229249230249231249235248235248234246234249233250233250234250235248237247237248235248234249234250234250235250236248239246239247238247237248237250236249238249239247241247241246239246239248239249239250239250240249247246247248246246245000000000000000000000000248248247250246247246247249247000000000000000000248592247592247591248590000000000000000000250593000000248598248596246595249595250595000000000000000000000000247633247630248632000000000000000000248636246636246636000000000000000000000000249636248653246654248653248651248651249651249652249653))
 (.node 1 (.leaf 248655246656246655246654248653249653250655250656247658246658247657246656247657249656248658249660248217248217248216000000249215250215250216249217249218248218248217248216249216250216249217251219249223248223247221249221250221251221250222249222249231248231248230248229249229250227250230250231250234249234249233249232250233250233250234250235000000000000000000248243249243251242251244000000250594249593248592249592000000000000000000000000000000248597249595249593250594000000000000000000249636248636000000000000000000000000000000251637249647248647249646248645249645249645249646250647250216249216249215000000000000251216250215251216249222249223249222250221251221251221000000251221250227249229249226250226251226252226251226251227250232249232249231249230250230251230251231251232000000250595250594250593000000000000000000000000250640248641250639249638250638000000251639251640249643248643248642248641250640251640250642250643000000249661249660248658249657250658250659000000252220251219249217250216251216252216251218253219251221251221251219249217251217251218253219253220251221249222250222251221251221253220251221253223252226250226251225250224251224252224252225252226251227250227250226251226252226253226252226252229251232250232250231250230251230252230252231252232000000251638251637000000000000000000000000000000251640250640250639250638000000000000252639252640250645249644249643249643250643251643251644251645250646249645249644249643250644251644251645251646251653249654250652250651251651251651252652252653250656250655250654249654251653252653252654251655)
 (.leaf 252216251216250215251216252214252214253215253216252226252226251225251224252224254224254225254225252231251231251230251227252229253229253230253231251236251237251236251235251235252235000000253237252243251243251242251241252241252241252242253243252641250642251640251639252639252639253640253641251647250647250646250645251645253644252646252647251648251648250647250647251647252647252648252649252660250659250658252658253657253656253657000000000000000000000000250659252660000000000000000000253216252216251216252214252214254214254215254216254220253220253219251218254218254219255220254221254225252225252224253223253223255223254224000000253231252231252230252229253229255228254230253231253237251236252236251235252235000000253235253236252239251240251239252238252238253237253238253239252241252241251240251239252239253238253239253241253243252243252242252241252241253241253241254243253245252245252244252243253243254243254244254245253641252641252640252639252639254639254640255642252646251646251645251644253643254643253644253645252648251648251647251646252646253645253647253647253657251658253657251655254656255656255656254659254216253216253215252214254214254214255215255216255220253220254218253216254216255216256218255220255227254226254225254225000000256224255226255227255228253229254227254226255227255227255228256228254232253232253231253230254230255230255231256232000000252234252233253232254232256232256232000000253237252238253237000000253235256234254236254237253238252239252238253237253236254236254237256238254245253245253244253243254243256242255244255245)))
 (.node 2 (.node 1 (.leaf 254640253640252639000000000000000000000000256641254643253643252643253641255642256641255642255643254651252652252650252650253650000000255650256653255655252654252654252652254654256654256654000000000000000000000000253657254659000000000000000000000000000000000000000000254709254710254711000000255212000000000000000000000000000000000000000000255224254224255223254222255222255222255222256224255228255227255227000000255226256226257226256228256232254232253231254230255230257229256231256232255233000000000000254233256232000000000000257233000000255245254245254244255244000000000000000000255643254643254642255642256641000000000000000000000000253650255649253647255649000000000000000000255650254650253650255649000000000000000000256650256215255215254214254214257214257213257214258215256219256218255216255215256215258215256217256219256220255220256218255216255216256217256219257220000000256232256232255231256231257231258232000000257234256234255233000000000000000000257235000000257239256239256238254237256238000000000000000000257240256241256239256238257238000000000000000000257242256242256241256241257240000000000000000000257645256645256645255643000000000000000000000000000000255649256647256645257645000000000000000000256650255650000000000000000000000000000000000000000000256654256654256653256653000000000000000000000000000000000000000000256711256712256713258714257222255222257221256220257220258220259221258222000000257234257233000000000000259234259234000000000000257238256238257237000000000000000000000000000000256242257240257239000000000000000000000000)
 (.leaf 257645000000000000000000000000000000000000256712256711255710255710258710259710257711259712000000000000257715000000258714000000000000000000258215258215257214257213258213259213259214259215258220257220256219256217258218259218260218259220258222257222256220257220258220259220259221258222258226000000258225257224258224259224259225259226259232258232257231257230258230259230260231259232257711257712258710000000259709000000000000260710000000000000258714256713258714000000000000000000259215258215258214258213259213260213260214260215259226258226000000258224259224260224260225259226000000259710259709000000000000000000000000000000000000258714259712257711260710261710260711000000260215259215259214259213260213261213261214262217260225259225259224258222260223261223261224261225000000259230260228260228000000261228000000260229000000000000259235000000260234261234262234000000261710260710000000000000000000000000000000262710260711259713260710000000000000000000262710000000261214260214260213260212260213263212262213263214261223260223259221260219261221262221000000262221261225260225260224260223261223262221262224261225261228000000260227259226000000261226261226261228260229000000260229000000261228261228262229000000000000000000000000000000000000262653261655000000262213261213260213000000000000000000000000000000261218261219261218262217262217263215264218264218000000262221261221260219261219264220262220262221261226000000261225261224262224263222264225264226000000000000260229000000262229263229000000000000000000261234262232000000000000000000000000000000))
 (.node 1 (.leaf 262649000000000000000000000000000000000000263649000000000000000000000000000000263650262652263654000000000000000000000000262706263704263707263708000000262710000000000000000000000000000000000000263222262224262221000000262221265221265223265223263229262229261228261226263227000000264228264229263650000000262649000000000000000000000000000000263654261655262653000000263654265653265654263654263704262706000000000000000000264702263704264706000000000000000000000000263707264707000000000000264214263214000000000000000000000000000000265214264216264218263215263214264214265214266216266216264220264220264218264218264216266216265219265220265221262221262220264220264220265220266221000000000000263227264226264225264225265225265226000000264228263228263227264226265226265226000000265228264230000000263229263228264228265228265229265230264702000000000000000000000000000000000000265702000000263708263707263704264706265706000000000000265214264214000000000000000000000000000000266214265220264220265219264216266216266216265218000000266222265223265221000000266221267220267222266223265225264225265223265223266222266223266224266225265230264230264229264228265228266228266229000000265651265653000000000000000000000000000000266653000000265654265653265653265651266653266654000000265702264702000000000000000000000000267703266704000000264707264706263704265705266705000000000000266216266216266216265214266214267214267215267216266224000000266222000000267222268222267223267224000000000000265654265651266653000000000000000000000000265706265705265702266704267704000000000000)
 (.leaf 267216266216266215266214267214267215268215268216268222267222267220000000000000269219269220268222000000000000000000266229267229268229000000000000000000266705266704267703268703000000000000000000268216267216267215267214267215269214269215269218269220000000000000268219268219269219270220269221268224267224267223268222268222000000269223269224000000267226267225267224268224269224000000269226000000000000000000267229268229000000000000000000268702268700268700000000269700270699269701269702000000267704268703268700268702269702000000000000000000000000267704268703000000000000000000000000269215268215267215000000000000270213270214270215270220269219268219268216269218270218271219270220000000268222269220269219270220270220271220271221000000000000268224000000269223271222270224269225000000000000268229269228270227000000000000000000270699269700269698000000270697270698271698271698270215269215269214000000270213270214270214270215270220270220269219269218270218271218271219271220000000270227268226269226270226000000000000000000000000000000270227268226000000000000000000000000271698270698270697270697271695272696272697272699271700269701270699270698271698272699272700272700271212000000000000000000000000000000000000272212271220270220271219270218271218273217273219272220000000000000270226269225271225000000000000000000272696271695271695000000272694000000000000000000000000000000271700271698272700000000000000000000272212271212000000000000000000000000000000273214000000271222271221271220272220273220273221273222000000000000271225270223272224274224273225000000))))
 (.node 4 (.node 2 (.node 1 (.leaf 272695272694000000000000000000000000000000273697272697272696272695000000000000000000000000272699272699272697272696000000000000000000000000272216272216273214272212273214274214275213274214000000000000000000000000273225274225275226274227274211000000000000000000000000000000000000000000274215272216272216273215275213275213000000276216273219273220273219273218274218275218000000000000274225273225274224273223274223275223275224000000000000000000000000000000274227275227275228000000000000273219274219274218275218276218277218000000000000274225274224274223275223276223000000275224276218275218276216000000277214277214277217000000276223275223276221000000277220277221278221278222277211000000000000000000000000000000000000278211277217276217277214276213276214279214277215279216277219277218276218276217277217279216278218000000278221276222277220000000278219278220279221278222000000275224275224000000277224278224000000000000278211277211000000000000000000000000000000279211278220278219277219000000278218279218279219279220279211278211000000000000000000000000000000280211280215277215279214279214280213280214280215280216279218278218279216277215280215280216280217280218000000000000000000278224279224000000000000000000280211279211000000000000000000000000000000000000280215279215280213279211280211000000281214282214282214280216280215280214281214282214283214282214282219280219280218280217281217282217282218282219000000000000280222280221281221282221000000000000282219282219281218281217282217283217283218283219283218282218282217282214283214283216283217285217)
 (.leaf 283222283221283220284220000000000000000000000000285218285217283217000000000000000000000000000000284220285218285217000000000000000000000000000000000000000000000000286223287223287224000000287224000000286223000000287222287222287223287223000000000000000000000000288225289223290225000000289223288225287223287223000000000000000000000000000000000000000000000000289228000000000000000000000000000000290225289223000000000000000000000000073163073163072164073163074163075163074164074164090195089196089195089194090195091195091195091195090196089196090195090195091195092195091195091196090479089479089478089477090477091477091478090479090186089187090186089185091185092185091186091186091186090186090186091185092185093185092186092186092186091186091186092185093185094185093186093186093186092186092186093185094185095185094186094186094186093186093186094185095185095185095185095186097468096467096466095464096466000000000000000000182425181426182425182424183424184424183425183425013293000000000000000000013291014291014292015293014217000000000000000000014215016217016217015219000000000000000000000000014222014221015223014223014282000000000000000000000000015280015281015282014289000000000000000000014287015285015288015289015300013301013300013299014299015299015300000000000000000000000000000000000000015194015194015195000000000000000000000000000000015195015196016196015203000000000000000000015201016201016204016205015209000000000000000000015207016207016208017210014214014214000000000000015214016214016215016216015231000000000000000000015229000000000000000000))
 (.node 1 (.leaf 15234000000000000000000015232000000000000000000015291014291014290014289015289016289016290015290016183000000000000000000000000017181017182017183016186000000000000000000016184000000000000000000016189015191015188000000016187000000000000017189016200015200015199000000000000017200017201000000017206015207015204015203016205000000000000017205016207015207014207015207017206017205017206017207016215014214015214015213016213017213017214017215000000000000000000000000000000016240016241016242016249000000000000000000016249017247017248017249017182016182000000000000000000000000000000000000017194015195015194015194017192000000000000000000000000016200000000000000017200000000000000000000017214016214016213016212017212017211017212019214017249016249015249016249017247017248017249017249016290016290016289016288016287017287017288017290016293015292016292015290016290017290017291017292016294000000016294015292016293017292017293017294016295000000000000016294016293017293017294017295016296000000000000000000016294017294017295017295017299000000000000000000016298017297017298017299000000015313015312000000017312000000000000000000017323000000000000000000017321000000000000000000018172000000000000000000000000000000018171019172000000000000000000000000018177019177019178000000018188000000000000000000000000000000000000000000000000000000000000000000000000019204018204018204018209018209018209017207018207018208020209020210019219017219017218017217018217000000000000000000000000000000000000000000018222000000000000000000017237000000000000000000018237019235019236018238)
 (.leaf 17288016288016287016286017286018286018287018288018307017307017306017305018305018305019306019307019172018172018171000000000000020170020171020172000000000000000000018177019177021175020176021177000000000000000000000000019181019181020182020183019197000000000000000000000000000000000000000000019200000000000000000000019198020198020199020200019215017214019214017212019213000000000000000000019231018233018230000000019229000000020230020231018285017285017283017282018282019282019283019285018287017287017286017285018285019285019286019287018302017303017300017299019301021300021301021302019309019308018308018307019307019306019307019308019315000000000000000000019313020313020314020315020172019172018171000000020170000000000000000000020185000000000000000000020183021183020184022183000000000000000000000000019184020184022183021184020190000000000000000000000000000000000000000000000000000000000000000000020195021193021196020196000000000000000000000000000000021196020196022196020201019201019200018199020199021201021202021203000000020210020209018208020209000000000000000000019234019235019232019231020231020232020233020234019283018283018282018281019281020281020282020283000000000000000000000000000000000000020387020387000000000000000000000000000000020396021397000000000000021175021175020173000000022173022174022175021179019181019180021177021177023179023180022181021192020194020191020190000000000000000000000000021197000000000000000000020196000000022196022197000000020202020201020200021202022202022203000000000000020205021205021205000000000000023205022207)))
 (.node 2 (.node 1 (.leaf 21225021227021227021229000000000000000000000000021227021228021229020235019235019234020232020233021233021234021235020236019236019235019234020234021234021235021236020237019237019236019235020235021235021236021237020238019238019237019236020236021236021237021238020241019241019240019238020238021238021240021241021317020317020316020315021315022315022316022317021391000000000000000000021391000000022390000000022152000000000000000000000000000000000000000000000000000000000000000000022157000000000000000000022175000000000000000000022173000000000000000000000000020184021183021180022182000000000000000000000000022183020184021183023183000000000000000000022203021203021202021201022201023201023202024202000000000000000000000000022208000000000000000000000000000000000000000000000000024217022218023218021238020238020238020237021237022237022238022238021241020241020241020240021240022240022241022241021244020244020244020242021242022242022244022244021246020246020246020244021244022244022246022246021250020250020249020247021247022247022249022250021250020250020250020249021249022249022250022250021254020254020253020251021251022251022253022254021255020255020254020253021253022253022254022255021256020256020255020254021254022254022255022256021257020257020256020255021255022255022256022257021258020258020257020256021256022256022257022258021259020259020258020257021257022257022258022259021260020260020259020258021258022258022259022260021284021285020283020282021282023283022283022284021288020289021288020286022287022287022287022289)
 (.leaf 21311020311020310020310022310022309022310024312000000021318021317021316022316024315024316000000000000021391021388020387022389000000000000000000023191000000000000000000000000000000000000000000023196022196000000000000024194024194000000025197024202022203022202022201023201024201024202024203000000022207023205000000023205000000000000000000022261021261021260021259022259023259023260023261022262021262021261021260022260023260023261023262022263021263021262021261022261023261023262023263023393022393023392000000023391024391024392024393000000000000000000023397000000000000000000000000000000000000000000000000024138000000000000000000024203024202023202023201024201000000000000000000024236022237022236022235024234024234026236024236023263022263022263022262023262024262024263024263023266022266022265022263023263024263024265024266023267022267022266022265023265024265024266024267023293023294022293022291023290024290024292025294023305022306022305022305023304024303024305025307024315024314024313024313024313025313024314024314024392023392023391000000000000000000000000000000025185000000000000000000000000025183025184027187025191000000000000000000000000026191027191026193000000025197000000024194025196027195000000027197025227024227000000000000000000026225027227027228024268023268023267023266024266025266025267025268024269023269023268023267024267025267025268025269024271023271023270023269024269025269025270025271024288023289023288023287024286025286025288025288024303023304023302023300024300025300025302025303025309025308025308023305025307025306026308026309))
 (.node 1 (.leaf 25319000000000000000000025317000000000000000000025564000000000000000000000000026562026563026564026119000000000000000000000000000000027118000000000000000000000000000000026201000000000000000000026224000000000000000000000000000000000000000000027238026238024236026236026237000000000000000000027241026241026240026239027239000000000000000000027243026243026242026241027241000000000000000000027244026244026243026242027242000000000000028244026248026249026248026247027247028247028248027248026250026250026250026249026248027248028250027250025272024272024271024270025270026270026271026272025288024288024286024285025285026285026286026287026311025311025310025309026309027309027310027311026564025564000000000000026562027562027563027564000000000000000000000000026573027571026573027575000000000000000000000000000000026573027575026574000000000000000000000000000000026579027580026581000000000000000000000000000000026581026581027583027159000000000000000000000000000000000000000000000000000000000000000000027178028176028177028180000000027191026191027190000000000000000000000000000000026193027191026191000000000000000000000000000000027195027193026193000000000000000000000000000000026232027232025230000000000000000000000000000000027239027238027237000000000000000000000000000000027240027239027238000000000000000000000000000000027242027241027240000000000000000000000000028244027244027244027243000000000000000000029244028247027247027246027244028244029244029246028246028248027248027247027246028246029246028246029248028253027253027253027252028252029251029252029253)
 (.leaf 28254027254027253027253028252029252029253029254028255027255027254027253028253029253029254029255028256027256027255027254028254029254029255029256028257027257027256027255028255029255029256029257028259027258027257027256028256029256029257029259027261027262027261026259028260028259028260029261026287025288025286025285026285027285027286027287026297025297025296025295026295027295027296027297026299025299025298025297026297027297027298027299026300025300025299025298026298027298027299027300026300025300025300025299026299027299027300027300027305025303025303025302026302027303027303027303027308026308025306025305027306027305027307027308000000000000000000000000027316027316028317029317027571026573026572025571027569028569028570027572028129000000000000000000000000000000000000000000000000000000000000000000028134000000000000000000028141027143027140000000000000030140030141000000028160027160027159000000000000000000000000000000000000000000000000000000000000028182028182029182028262028262027261027260028260030260029261030263027271026271026270026269027269029268028270029270027273026273026272026271027271029270028272028273027274026274026273026272027272028272028273028274027275026275026274026273027273028273028274028275027287026287026286026285027285028285028286028287027310027311027310027309028309028308028309028310028315026314026313026312028313028312029314029315000000000000000000000000028320000000000000000000000000000000000000000000000000029543028543028543000000000000000000000000028551029551029552029553028559000000000000000000028557029557029558028558))))))
 (.node 16 (.node 8 (.node 4 (.node 2 (.node 1 (.leaf 28566027566027565027564028566029564029565030567028569027569027568027567028567030568029570029571028576027578026576026574029574029574029575029576028583027583026581026581028581030580029582030583029167000000000000000000000000000000000000000000000000000000000000000000029172000000000000000000029177028177028176028175029175000000000000000000000000000000000000000000029186000000000000000000029188000000000000000000000000000000000000000000030265029264029264028262030263031263031263031265030266028266029266029264030265031265031265030266029267029267028266029266030266031265030266030267028287027287027286027285028285029285029286029287028298027298027297027296028296029295029297030299000000028317027316028315029315031314030316000000000000028319029317028317000000000000000000000000029551028551028550028547029549030549030550030551029561028561028560029559029559030561029560030561029564028566028563028562029562030562030563030564029576028576028575029574029574031575031577031578000000000000000000028585029585000000000000000000029634000000000000000000000000000000000000000000030640000000000000029638029639000000000000000000031249030249030248029247000000000000031248031249031256030256030255030254030254032254032255032256030269028270029268029267030267031267031268031269029276028276028275028274029274031273030275030276029277028277028276028275029275030275030276030277029287028287028286028285029285030285030286030287030472000000000000000000000000000000031471031474030542028543029543028540030540031542032543030542030549029549029548028546030547031545031546032548)
 (.leaf 30559028558029558029557030557031557031558031559030581030580030578029577030579031579000000000000000000030583029582030580030581000000000000000000000000029585029584030583000000000000000000000000032256031256031255030254032254032254033255033256031273029274029273029272031271032271031273031274030278029278029277029276030276031276031277031278030279029279029278029277030277031277031278031279030280029280029279029278030278031278031279031280030281029281029280029279030279031279031280031281030282029282029281029280030280031280031281031282030282029282029282029281030281031281031282031282030284029284029284029282030282031282031284031284030285029285029284029284030284031284031284031285030286029286029285029284030284031284031285031286030287029287029286029285030285031285031286031287030290029290029290029288030288031288031290031290030294029295029293029291030291031291031293031294030294029295029295029293030293031293031294031294032301031301031300031300031300032300032301032302031305031303031303031302032303032303032304032305031308031307031306031305031306033306032305032308032312030313031311030311032311000000000000000000031315031314031313030313032312000000032314032315000000000000030478031477000000000000000000000000031537029537031536030535031535032535032536032539031545030547030546030543032543032543033546033546031548030550030549030548031546032546032547032548031555031555030552029553031553032553032554031555030563030562030561029560030561031562032563032564031568030568030567030566031566032568032569032570031572030572030571030570031572032572032573032574))
 (.node 1 (.leaf 31577031577031575030575031573000000000000000000032112000000000000000000000000000000033111033112000000000000000000000000032126000000000000000000032170000000000000000000000000033168033169032171032172000000000000000000032170032171034173034173033256032256032255032254032254034254034256033256032270031270031269031268032268033268033269033270000000000000000000031315032315000000000000000000032469000000000000000000000000000000033468033469000000000000031476032475032475000000000000000000000000000000000000000000000000033522033525032524032535031535031534000000000000033533034534033535032557031559031558031557031556033555033556033557032564030563030561030561031562032562034561034562000000000000000000031579000000000000000000032579033116031117033115033115033114034114033116034116032120031120032120032119033117034119033119033120033159000000000000000000000000000000000000034159000000000000000000000000033163033163034162034165033168000000000000000000000000000000000000000000000000000000000000000000033177000000000000000000033182000000000000000000000000000000034181034184033191000000000000000000000000034189035190034191033269032269032268032267033267035267035269035270033299033299032298033297033297035295034298033299033468000000000000000000000000034466034467034470000000032475032474033473033473000000000000000000033521000000000000000000000000000000000000034521033557032557033556031556033555034557034558034559000000000000000000000000033595034593034594034595034113033113033112033111034111035111035112035113000000000000000000000000000000035137034138034139)
 (.leaf 34173034173032171034172035172000000000000000000033187032185033183034185035183035184035187034188000000000000000000000000000000000000000000034191033191000000000000034189000000000000035191034198000000033197034196034196035196035197000000034274034274034273034272034272036273036273036275034303032302032301032300034301035301036302036302000000000000032304033304034304000000000000035306034466000000000000000000000000035464035465035466000000033473033472033469034471035471000000000000000000000000000000000000000000034501035500034503034521033521000000000000000000000000000000000000034528032527033525032524034526035524035525036527034532032532034530034530035529035530035531034531034537033537033536033535033535035535035536035539034545033545034544033541033542035543034543034543033547033547033546033545034545034543035544035547034558033556033555033554034556035556036556035556034583034583033580032579034581035579035580035581033586000000033586033585034585034585035586035587034595000000033596033595034593035593035594035595034610000000032610032609034608034610035611034610000000000000000000000000034617035617000000000000035115033116034114034113035113036113036114035116035127033126000000000000035123000000036124035125035136000000000000000000000000035134035134037135000000000000000000000000035140035142035142000000035144034144000000000000000000000000000000000000035183034185034184034181035181036181036182035184035191034191035190034189000000000000036190036191000000034198034197034196035196036194035197035197000000000000000000034198000000035197035198036198)))
 (.node 2 (.node 1 (.leaf 35202000000035203035204000000000000000000000000000000035203036204035254034254034253034252000000000000000000000000036276035276034275034274036275037274037275037276036290035289035288035287035288036288036289036290035293035293035291034291036290036291036292036293036297035295035295035294035295036295036296036297035309000000000000000000035307000000000000000000035465034465000000000000000000000000037464036465000000000000034472034471035471036471000000000000035497000000000000000000000000000000036496036497000000000000000000000000035505000000000000000000000000000000000000000000000000036520035520035522035524034526034525034522000000000000000000000000035535033535033535034533035533036535036536037537035541034541034538034537035539036539036540035540035550034550034547034546035548037548037548037548035552034552035552034550035550036550036551037553035557034559034558034557036556036555036558036559035564034564034563034562035562036562036563036564035569000000034570034569035567036567035569036569035575034573034572033572035573036573036574036575035589034591033589034587034588035587036588036589035594034594034593034592034592037592037594036596035599034599034596034595035595035597035597036599035600000000000000000000034599036600036601036602035647000000000000000000035645036645036646036647036113035113035112035111036111000000000000000000036129034130034130035129037127037127037128037129036137035137000000000000037135038135037136036137000000000000000000000000035142036143037144036144036145035145035144000000000000036144037144037145)
 (.leaf 36160036161035159000000000000000000000000000000036181035181035180000000000000000000000000000000036193035195035192035191036191037191037192037193000000000000000000034207036208037206037209036210000000000000000000000000000000036210000000000000036260036261036259036259036258037258038260038261036263036263036263036262037262038261037262038263037267036266036266036265037265038264037265038267037269036270036269036268037268038268038268038270037278036278036277036276037276038276038277038278037279036279036278036277037277038277038278038279037280036280036279036278037278038278038279038280037281036281036280036279037279038279038280038282037283036282036281036280037280038280038282038282036287035287036285036284037283038284037284036286000000000000000000000000036314037312037315000000000000000000035471035470036470037468037471037472036497035497000000000000000000037495037496036497036504035504034503035500036502037502037503000000036516000000000000000000000000000000000000036516037532034531035531035530036530037530038530037532036566034568035567035566036564037566036565037566036600034599035599035598035597036598037599037600036612034610035611034610036608037610036610038610035613035615035614035611036613037613037614036614036641034641034641000000036639037639037640037641036648035648035647035646036646036646036647036648036658000000000000000000036656037656037657036657037145036145000000000000036144038143038144037146000000000000036150037148037149038149038150038151037168000000000000000000000000000000038167037169000000000000000000000000037172039171038173038174))
 (.node 1 (.leaf 37184037185035184036182000000000000000000039185037194036194036193036192037192038194038195038196037205036207036204035203037203038203039205038205038268037269037268037267038267039267039267039269038273037272037272037271038271039270039272039272038275037275037274037274038273039273039274039275038276037276037275037274038274039274039275039276038284037283037283037281038282039281039283038283037295036295036294036293037293037292037293037295036296036298036297036296037296037296038297038298036301036302036301036300037300039300038301038302038306000000000000000000037304000000000000000000000000036310000000000000037308000000000000000000000000037310037310036310000000000000000000000000037311036313037310037310000000000000000000000000000000037464000000000000000000000000000000000000037467036469037466036465000000000000000000000000000000000000000000000000037472000000000000000000037495000000000000000000000000000000038494038495000000036504036503036502037502038502038503037504000000000000000000036510037510038510037511039512000000000000000000000000000000037511039512037511037527036529036526000000000000000000000000037528037537037537036536036535037535038535038536037536037565035565036564036563037563038561037563038565037569036569035569036567037567038567038568038569037573036575036574036573036572038571037574037574037578036578036577036576037576037575039575038576037582035581036581036580036579038580037580037582037588036588035587036588036588038586039587038588038602036602036601036600037600038600038601038602000000000000000000000000037619038619000000038621)
 (.leaf 37629000000000000000000000000038627038630038631037641036641036640036639037639038639038640038641037656036656036655036652037654038654038655038656000000000000000000000000037661038661038662038663038135038135037134037133000000000000000000000000038137036137037136038135038135000000039136039137038143036143037142038141038141039139039142040143000000000000000000037150038150039150039151038152038167000000000000000000000000000000000000039167000000000000000000000000038174039174039175000000039191037190000000000000038190039190040190039192038197037195037194037193038195000000000000000000038206037206037205037204039205039204040205039206038210000000000000036210039209039208039209039212039267038268038267037265039266040266040266040268039285037284038284038282039283040283040285040285000000037304037303036301038302039302000000000000038497036497037496037495038495039495039496039497037504000000037503037502038502039502039503039504039520038519038518038518038517039519039520039521037531037532038530037530039528039528040530039532038536037538037537037536038536039536039537038538038544037542037541038540038542038541038542038543037545037544037543037542038544038543038543038545038558037558036559037558037556039556038558038559038576037578037577037576037575039574039575039576038588037588037587036588038586039586039587039588038594037594037593037592038594038594039595039596038601037601037600037599038599039599039600038601038605036607037606037605037604038604040605038605038612038610036610037610038610038609040610039612038621000000000000037619038619038619038619039621))))
 (.node 4 (.node 2 (.node 1 (.leaf 38622039623039624038623037623000000000000000000039623039624039625038627000000000000037627037625038626038627039627038640037640037639036639037639038638039641039642000000000000000000000000000000039666038666039666038673000000000000000000038673039673038673039675000000000000000000000000000000038676038676038678039044000000000000000000039040039040039042040042000000000000000000000000039056040056039057039057000000000000000000000000000000040071039073040075000000038135038134000000000000040135039135041137039138038138038137039136039136041137039138040140038152000000000000038151039151040151040152040153039174038174038173039171039172040172040173040174039193038191039191037190040190000000000000000000000000039202000000039201000000000000000000000000038215038215038214038211039213041212041212039215000000000000000000000000039216040216039217040218039219000000000000000000000000039217040218040219000000000000000000000000039220040220000000000000040262039262038261038260039260039260041261040262039300039300038299038298039298041298039299039299000000000000000000000000000000039304039304039305039410000000000000000000039410040410039410040412039498038498038497038496039496039497040497040498039505038505037504038503039503039503040504040505038513037511039512037511039511039511041511041512039527037528000000000000000000039525040526040527039532038532038531037531039532040530040531039532040582037582037580038580039580040580040581040582038584038586038585038584039584040584040585039585039589038589038588039587039587039587040588040589)
 (.leaf 39598038598038595038594039596040596040597040598039615038615038614037614039613040613039614040615039635037634037634037632039633040631040634039633039644038644038641038640039642041641040641041643039647038647038646038645038644040645039645040647039655038657038656038655038655039654040654040655039666000000000000038664039664040664041664041665039045038045038045039044040042040044041045041046039050038051039050038048040049041049041050041051040051038053038051038051039050041051041052041053039061000000000000000000040060040058040060040062040065000000000000000000039065041063041064040066000000000000000000000000040075040074040075040076000000000000000000000000000000040075040076041076040103000000000000000000000000041103040102041103040129000000000000000000040127000000000000000000040143040143039142039139040141041141042142041143040153038152038152039151040151041149041150040152000000039175039174039173040173000000041172041173000000039192040190039190000000000000041189041190040209039209039208039207041208000000041208042209000000000000039220039219040219041217041220041221040281040282040280040280041279042280041280042281041286040287040285040285041285041285042286041287041289040288040287040287041286041287041288041289041289040289040288040287041287041288041289041290000000000000000000000000040309000000000000000000000000000000000000000000000000041400040400040400000000000000000000000000000000040400040402040402000000000000000000000000040418041418041419040420000000000000000000000000000000040426000000000000040498039498039497039496039497042497042498041498))
 (.node 1 (.leaf 39505040505000000000000000000039518039519039518039517040517041515041516042518039524038524039523039522040522041520040521042522040540038541038540038539041539041538041539041540040547038545038545038543040545041543041546041547039552039551039550039549039551041551040551040552040553038555039554039551039552040552040554040554039560038559038558039556040558041558041559041560040570038570039569039568039568041568041569041570040573039573038572039571040571041571041574041575040590040591039589039588040588041588041589040591040601038601039600039599039598041599040599041601040603040601039602038601040601041601041602042602040608040608038605040605040606041606040607041608040615039615038614039613040613041613041614040616040623039623038622039621040621041621040622041623040650038649038648039648040648041646041647042649040657039659039656039655040655041655041656041659041665039666038664039664040664041664041665041666040675039675038673039673040673041673040674041675000000000000000000000000000000040679040680041680000000000000000000000000000000041690040690041692000000000000000000000000000000041704041707040706041039040037039036040035041037041036041038041038040039039040040038040037041039041038042040042041042048040048039046039045041046042046042047042048040066040065039065039065041063042063041065042065041067039068039068040065040066042065041068041068041099000000000000000000000000041098042098043100000000000000000000000000000000042118041120041121041134039135040135039133041132000000000000000000041140040140039138041137041138000000000000000000)
 (.leaf 41146040145040144041144000000000000000000041149040151040150041148041147000000000000000000041174000000000000040174041172042172042173042174041189000000000000000000000000000000000000000000000000000000000000000000041194042194042195042196041213039215041212041212041211042211042212042213000000000000000000000000041221042221000000000000042294041294041293041292042292042293042294042295041294041294041294041293042293042294042295043295042299039299039299041298041298042296042299043299041400000000000000000000041396041397041397041398041409039408040406039406041407041406043408043408040411040412039410040410041410042410042411041411042415039416039414040414041414042414042415042416041482000000000000000000000000000000041481042482000000000000000000000000041488042488041489041489041498040498040497039497042497000000000000042498000000040505040504039503041503042501042502042505041515040517040516041515042514000000000000042515041519040519039518039518042518043517042518042519040528040526039525039525041526042526041526041528040529040529040528040527040528041529041529042529041533040535039532040531041531041531042532042533041542040544040541040540041540042540042541042542041547040549040548040547041547042545042548043548041561040561039560040559041559042559042560043561041565040563040562039562040562041563042564042565040566039567040565039566041566042566042567041567041570040570039569039568041568042568042569042570041577041577040574040573041575042575042576042577042583040585040584040583041583042583043583043584040588039587040588041587041587042587041588043589)))
 (.node 2 (.node 1 (.leaf 40594040592041592040590040591042592042593041594041604040604040603040602041602043602042603042604041610040610039611040610040609042608042609042610041613040613040612040611041611042611042612042613040622039622040621040620041620042620042621042622041629040629040628039627041627042627042628041628041630040630039630040630040629042628042631043631041641041640041640041638041639042637042640042641041642041643040641041641042642042642042643042644041646040648040647039645041646042646042647042648041655040655040654039654040654041654042654041655041662039661039661040658041660042660042661042662041678040678040677040676041676042676042677042678041703000000000000040701041701042701042702042703000000000000000000000000041716042714042715041718042043041043041040040039042041043039043040043041042052041054041053041052041052042052042052042053041057040056040056041056042056044055043057042057041058041057040056040056041056043057042057042057041060040060040058041057041058042057043060042059042062040062040062040062041061042062042062044063041079041080041079041076042078043078043079043080041083000000000000000000042082043080043081043082000000000000000000000000042085042084044086042087041095041096041095000000042094043094042094042096042098041098000000040098041097042098043099043100042180000000000000000000000000000000043179043180042196000000041195041194042194043194043195000000042212041212041211041210000000000000000000000000042217041217042217042217042217044216044216043217042288041288041287042286042286043284044285042288041291041291041290041289042289043289043290043291)
 (.leaf 41406041406041403040402042404043404044405043406042413041413040411041411042411043411043412042413042420040420041419041418042418043418043419043420042426000000000000040426041426044426042426043426000000000000000000000000000000042435043436000000000000000000000000000000042489042491043490042491042523041525042522040521042521042521043522042524042534041534041533041532042532043532043533043534042544041546041543041542042542043542043543044544042554040554040552040551042552043550044552044553042562041562041561041560042560043560043561043562043577040578041577041576042576043576043577043578043581041582042580042579042580043580043581043582043589040588041588041587042587043587043588043589041594040594041593040591042592044592044592043594043602041602041601040599042600043600044601044602042614041614041613040613042612043612043613043614042621041621041620041619042619044619043620043621043638042637042636042636042634043634043635043638042643041641042642041641042641043641044642044642042653042653042651041651043651043651042652043651042662041662041661041660042660043660043661043662042671041673041672040670042671043669042671043671043687042686040685040685042686043684043685043686042690041692040690041690042688044689043689043690042696000000000000041696041694043696042696043696041713041715041712041711042711043711043712042713042714041716041715041712042712043712042713043714000000000000000000000000043003044003044004043004043028000000000000000000000000000000000000000000044071043069043069041068044067045069045069044071043075043075042074043072043073044071044072045074))
 (.node 1 (.leaf 44075042077041076043075043075045074044074044075044080042081041079041079043079045078044080045079043081041083042082042081044080045079044080044081043117043117042118042115043115044115044116044117044125000000041123041122043123043123043124044125000000000000000000000000000000044144043146044146000000000000000000000000000000044146043148043149000000000000000000000000000000043148043149044151042174042174042173042172043174043174044175044176043193042193042190000000043191043191045191045192043214043215042213042212000000000000000000044214043263041263042262042261042262044261044262044263043273042273042272042271043271043272044272044273044282043282043281043280044280045280045281045283044291041291041291041289043290044290044291045291000000043295042295042294043294000000000000000000000000042296043296043295000000000000000000000000000000000000043302043301000000000000000000000000043393000000000000000000000000043392044394044395043400041398041397041397043398044398044399044400044405043405042404042403043403044403044404045405043411042411042410043408043409044407045409045409044413042414042413041411043412044412045413045413043413042415042414042413042413045413045413045415043421042421042420042419043419044417043419043420043430041431042431041429043430044428043430044430000000000000000000000000000000000000043460044460043469000000000000000000000000044467043469045469042473000000000000000000043473043472044474044475043484043484042483042482042482044482045484043485042491042489041489041489043489045487045489044489000000000000000000000000043495044495045496043497)
 (.leaf 43498042498000000000000000000043497045497045498042505042505042502042501043503045502045504044505000000000000000000000000043513044513044514000000042521042521042520042519043519043519043521044521043528041529041529041528043526044526043527044528043542042542042541042540043540044540044541045542043576042576042575043574043574044574044575044576044601042601042600042599043599044599044600044601043609042609042608042607043607044607044608044609043614042614042613042612043612044612044613044614043623042623042622042621043621044621044622043623042627042627042626042625042625043625044626044627043635042637042634042633042633044633044634043636043647042647042646042645043645044645043646044647043660042660042659042656043658044658044659045660043668042668041668042668042667044668044669044670043689042689042688043687043687043688043688044689042701000000000000000000043700043700043700043701043704042704042703042702043702043703043704044706043712042712042711042710043710044710044711045712000000000000041718041718043718044718044719000000044031044032044030043029000000000000000000000000044047043047042047042047044045046046046047046047045056043057044055042055044055045053045056046056043090042090042088043089044089045089045090044090043100043101043100043099044099045097045098044100044103043103043102042102043101046103046103044103044116043116043115042115044114044115046117046117000000000000000000000000043152044152044153044154000000000000000000000000000000044155044156044157000000000000000000000000000000044156044157044158000000000000000000000000000000044157044158044159)))))
 (.node 8 (.node 4 (.node 2 (.node 1 (.leaf 43163000000000000000000000000044162044163045165000000000000000000000000044167044167000000000000043181043179000000043179043179045177044179045179000000000000000000000000044196045196045197000000044222043224042223042222045221046221046221045222044273043273043272043271043272044271045272045273045280044280044279044278045278046278046279046279045283044283044282044281045281046281046283046283044284043284044284044283045283046283046284046285044291043291043290043289044289046288046289045291044396043394043393000000044394045394045395046396044401043401043400043399044399045399046400045401045424043425042423042422044423045423045424000000044426043426042426044426045424000000045425045428044437000000043436042435044435045435045436045437000000000000000000000000000000045456045459044458045476044477043474042473044475045473045474045475044481043483043482043479044479046479045480046482044489042491042489043489045487045487045488045489045496043496043495043494044494045494045495046495043527043527043526042527043526045525044527044527044528043528043527043526044526044527044527045528044540043540043539043538044538045538045539045540044553044552043550044551045550044549045550045551044553043555044553044552044553045551045552046555045559043557044558043557044557046556045558046559044574043574043573042570044572045572045573045574044593044592044592043591044591045591045592045593044614043614043613043612044612045612045613045614044621043621043620044619044619045619045620045621043652043651042652043651043651044651044651044652043653043652043651042652043651044651044652044653)
 (.leaf 43653043653043652043651043652044652044653044653044661043661043660043659044659045659045660045661044701042701042701042700043700045699045700044702044710043710043709042708044708045708045709046710044719043719043718043717044717046716045718046718045007044007044006043004045005045004045006045007044008000000000000044007045007045007046008045009000000000000000000000000044008045009046010000000046038044038044037044036045038046036046037046038045053044055044054045052045053046053046054047053046059045059045058045058045057046057046058046061045064045062044063044060045060046062046063047064045086044088045086044086045084046084045085045086044108044108044107043107045108045108047108046110044111044110043109044108044108046110045110045111045112043113044111044110044111045111047112047113044136000000000000000000044133045134047134046136045141000000000000000000045139046139046140046141046147044146043146044144000000000000046145045146044153000000043152043151044151045151045152045153044161000000000000000000044159045159045160045160045176043178044177044176046174046174046175046176000000000000000000000000045184047184045185046186045191045192045191043191046190000000000000000000000000000000000000044196045196000000000000000000045218045218045218044216046218046216046217046218044268043268044267044266045266045266045267045268044269043270043268044267045267045267045268045269044271043270043270043268044268045268045269045270045272044272043272043270044271045270045272046274046279045279045278045277046278046278046279047279045390044390000000000000000000047388045390046390))
 (.node 1 (.leaf 46397045397044396044395045395046395047396046397045417044417045416045416045415046415045417045417045430044428045428044426045428000000000000000000045433045433044430043430045431046429046432047433045436044436044435044434045434046432046433046436045455000000000000000000000000000000000000046455046471045469043469044467046467047469046470046471045476045476045476043474045474045475045475046478045483045484044482044481046482047481047482046483046497043497045496044495045495046495046496046497046498045498045497043497045496046498000000000000000000044505045504045502045503000000000000000000045513044513043512044509045511046511046512046513045524044526045524044524045522045522046523046524045534043535044535044532044532046532046533047534045545044545044544044543045543046543047544046545045564043565044565044564045564046562045564046566045569044571045569043569044568046567045570045570045575044575044574044573045573046573045573046575044586044587044584043584045585046585045586046587045591044591044590043589045589047588046590046591044600044600044599044598045598046598047599046600044606044606044605044604045604046604046605045606045614044614044613044612045612046612045613046614045621044621044620044619045619046619045620045620045636044638043636044634045634045634046635046636045660045660044659044658045658046658047659047660045679043681045679044677045677045678046678046679045699043700043700044699045697046699047699047700045707045707044706043704045705046705046706047706045708044708044707045707046707047707047707046708045711044711044710044709045709046709047711046711)
 (.leaf 47002045002044002045002046002000000000000047002000000000000000000000000000000046017047018000000046049046050046049046047046047047049048049047049046061046059045058045057046057047057048060048060047064045064045063045060046062047060047061047062046077045077045076045075046075047075047076047077046083045083044081045079046081046081047082046083045086045086045085045084046084047084046086047086046104044104044103046103047103047102047103047104047118046119046118046117047118047118048118047118047123046122045121046120046120047120047121047122045127045128045127045126046124047124048125046126046139045139045138044136046137047137047138047139045173045173045172045171046173046172046172048174046176045176044176046174046174047176048177046176045185045185045184045183046183047181047184047185000000045196045195046193046194000000000000000000046227045225046225045225047224000000000000000000045267045267045266045265045265046265046266046267045268044268045267045266045266046266046267046268046278046278045277046275046276047276048277048277046397046397046396045395046395047395048396047397046404045404045403046402046402047402048403048404046423045423044422046420046421047421048422048422046455045455000000000000000000047453047454046455046461045461044458045459046459048459047458047461047472045471046471046471046471048469047470047471047480046479046479045477047477047477046478047479046491046493046491045489046491047491047492046493046514045514045513045512046512046511047513047514047529046529045528044527047527047529047530047531046550046549045549046547046548047548048549048549)))
 (.node 2 (.node 1 (.leaf 47550044549046549045549047548048549048549048551047558045558046556045556046556048556047557048558046561045561045560046559047559047559048559048560046580044581045581045580045579046580047581046580046587044586045586045585046585047585047586047587046590045590045589045588046588047588047589048589046593045593045592045591046591047591047592048593046600044600045599045598046598047598047599048599045606044606045605045604046604047604046604047606046611045611045610045609046609047609047610047611046614045614045613045612046612047612047613047614046623045623044621045621045620047621046621047623046628045630045629044628046628047628046628047630046638044640045637045636046636047636047637046639045643045644045641044641046642047642047643048644046646044647044646044646045645046645046645047646046655044653044653044652046653046653046654047655046664045664045663045662046662047662047663046664046666044668045667045666045666047664047665046666046670045670044670045670046670047670046670046671046675045677045674045673045673046674047674047675046695045695044695045695046693046693047696048697046701044702045700045699047700047699047700047701047707046707045707045706046706047706048706047706046713046714045712045711046711047711047714047715046719046718045718046716046717047715047718048717047003045004047002045002000000000000048002049004047042046042047041047040047040047041047041048044047056046056046055046054046055049055048055047056046074046073046072046071046071047071047073048073047076046076046075046074046074047075047075049076047083045084046084046083046083047082048084048085)
 (.leaf 46091046093046090045090047091048091047092048091047100045099046099046098047098048096047099047099047101046099045099046099046099047099047099047101047107047108045108046105047105048105049107049108047133047134045134046133047131048131049133048133047140046140046139046138047138048138048139049139047142000000046143046142046142048142047142047142047145046145000000000000046144049145048146047145046150045151046150046147047149048149047149048149046155045156045155047154047155048155048156048157047163045164045164045163046161048163048164048165000000000000045186047187048187000000000000000000047213046213000000000000000000000000048212048213047220046220046219046218046218048218047220047221000000046227047227046227000000000000000000000000047230046232045230047229000000000000000000048230046267045267045266045265046265047265047266047267048277047276046276047275047275048275049276048277000000047286047285047284000000000000000000000000000000047288047287047286000000000000000000000000000000047289047288047287000000000000000000000000000000047290047289047288000000000000000000000000047388047388046387000000047386048386047387048390048396047396046395046394047394048394049395048396047421046421046420045417047419049417048420048421000000000000000000000000047426048426048427048428000000046439047437047437000000000000000000000000047453000000000000000000047453048451048452048453047466046466046465046464046464047465049466049468047484046484046483047482046483047483049484048486046493046495046494046491046493048491048492047493047505000000000000000000000000047503048504047505))
 (.node 1 (.leaf 47508047509046507000000046506048506049507048508047516045515046515046514047514048514048515048516046523046523046522045521047521048521048522048523048545047544046543046542047542048542048543048546048556046556046555047553047554048554049555048556047565045564046562047563047561049563049563049563047568045567046567046566047566048564048565048568046580045579046579047577047578049578048579048580047594046594046593046592047592049591049592049594047597046597047596046595047595048595048596049597047601047601047601047601047599048599048602048603047613045613046612046611047611048611048612049613046619045620046619046618047618048616048617048620047637046637046636046635046635048635048636048637048644045643046643046642047642048642048643048644046658046658046657046656047656048656048657048658047665046665045666046665046664047664049665047666047674046674045673046674047674048672048675048676047681047681045680046679047679048679047680048681047686046686046685045684046686048684048685048686046691046691046690046689047691047690047691048693047715046717046714046713047715049714048714048715049007048008048007047007000000000000000000000000048014047012000000000000048012049012048012048013000000047016048014047012048014048013049015000000048038000000000000000000047037050037049037050038049045048046047046047043048045050044050044048046048052047052047051048051048050049050050051049052048061047061047060048060048059049059050060049061048066047064047063047062048062049062048064048064047082046083047082046081048081049081049082049083048111047113047112047111047110049109049110049111)
 (.leaf 48127047127046126048125048125050127050127050127049139047140047139047138048138050136049139049140047168046168046168047168048166049168048168050169048173048174046172046172049172049171049172050174048179047179046176048177048177050175049178049179000000047181048181048180000000050180000000000000048213047213047212000000000000048211048212049213048259048260048259048258000000000000048259050259048262046263047261046261048260049260050261048263047265046265046264046263047264048263048265048265047266046266046265046264047264048265048265048266047267046267046266046265047265048265048266048267048273046271046270046269047269049271048271048272048320000000000000000000000000048319048319048320000000000000000000000000048330049330048331048331048386047386000000000000000000049384048386048387049393048393047392047389048391050391049392050393049395047395047394048393049393050393049394050395048415046415046415047413049413049413049414049415048423048422048422047421048421049421049422049423048429000000000000047427048427049427049428049429048455046455047454047453048453049453050455049455048461047461047458048459048459048458048458049461048464047464047461048462049461049462049463048464048480047480047479046478048478049478049481048480048490047490048487048487048488050487049489048489048503000000000000000000048501049499049502049503048508047508047507046506048506049506049507049510048515047515047514047513048513049513049514049515048517047517047516046515047516048516049516048517048524046524046523047522048522050521049523048524048532048532047531047530048530049528048529048531))))
 (.node 4 (.node 2 (.node 1 (.leaf 48542047542048541047540048540048540050541049542048560048559047559048558049558050558049559049560048564047566047565047562049563049562049563050564048571048570047568046568048569049569050569050569048574047572048572048571049572049570048573049574048586047586047585047584048584050583049583049586048589047589047588047587048587049587050588048588048598047598047597047596048596050594049597050598047608047607046607047607048607050607050608048608048611047611047610047609048609050609049610049611048616047618047617047614048614049614048615049616047622047623046621047621048621049621049622048623048627047625046625046624047625049623048625049625048636047636046635047634048634050635048635048636048644048644047643047642048642050641049643049644047649047649047648047647047649049649048649049649048659047659046658046657048657049657049658049659047678047678047675047674048676049674048677049678049696047696046693048693048694050693049695049696049704047705048702047701048703049703049704049705048719048717047718047715048715049715049718049719000000049007000000000000000000000000000000000000049008048008049007000000000000000000000000000000049030047031049030047029049028051029051030000000050037047037047036047034049036000000000000000000050044048045048044047041049043049043051042050043049047048047049046049045048046050045050046050047049061048061048060048059049059050059050060050061048071048070047069047069049070050068050069050070049077048077049076047075049075049076049076050077048083048084047082047082049082051080050083049084049086048086048085048084048083049084050085049085)
 (.leaf 48090048091048090048089048089050087050088049089049093048093048092048091049091049091050092049093049097047099048096047095049097049096049097050099048104047105048103048102048102050102050105049104050108049109049108049107049108049106050107050108050180000000048180048179049179050179051179051181000000000000049185048185000000000000000000000000049213048213048212000000048211051212051213049213048325047326047324047324049325049324050326049327048329047328047326047326048325049327049327049329048331000000000000048330049330050330049331000000000000000000000000000000048331049331000000000000049392048392048391048390049390050390051391050392049401048401048400049399050399051399050400050401049416048416048415048414049414051415051415050416050423048424048423048422049422049421049422050424049446048446047445047443049444051442050445050446049447047448047446047446049447051446050446049448049474047473048473048472049472050472049473050472049477047479048478048475048475050475051476050477049489048489048488049487049487050487050488050489049494048494047493048492049492050492049493050494048498048500048497047496049498049497049497049499049505047503047503048503049503050503049504050505049515048515048514048513049513050513050514050515049524048524047524048524048524049523049524049524049528048530048529048526049526049526049528051529049535047534048534048533049533050533049533050535050569048571048570048569049569050567050568051570048588048589048588048587049587050587050588050589049616048616048615048614049614050614050615051617048623047622048622048621049621050621051620050621))
 (.node 1 (.leaf 49623047625047623047622048623050621050622049624049629047629048628048627049625049625049627050627049630048632048631047629049630051630051631051631048645047646048645048644049644051643050645050646049653048653048652048651049653049653049654049654049659048659048658048657049657049657050658050659049664049665047664048662048662049663049663050664049674048676048675048672049672050672050673049675049683048683048682048681049681050681051683049683049688049689048687048686048687050688051688051689000000000000000000048719049719000000000000000000051038050038049037050037000000000000000000052038050069049071049070049069050067051067051068051069050087048089049088048087050085050085052087051087049093049093048093049091049091051091052092050093049102048101048100048099050100051100050101051102050118048119049119049116049118051116051117051118050128049128050127050127050126052126052127052128050137049139050136049135050135051137051138051139050157048156049156049153050155051155051156050157050174050174050174049172050172051172052174052175000000000000000000000000050207000000000000000000050260049260050259048259000000000000051259051260050262048263050261049260050260051260051261051262050276049276048275048274050274051274051275051276050317048318048317049315051315051315052317052318050385048386049384000000050383051383051384050385050417050417049416049415051415051415051416051417000000000000000000000000000000051438050438050439050457048458048456049455050455051457050456052458049463048464049463049462050462051460052463052463049473048471049472049471050471051471051472052473)
 (.leaf 50483050483049484049481050483052482052482051483050495049495049494049493049493051495050495051495049504048503049503049502050502050501051503051504050512049512050510049510050508051510050511051512050513049513049512050510050509050511051512051513050521050520049518048517050519000000000000051521050537049537049536049535050535051535051536051537050547049545050545049545051543051543051544051545050555049557049556050555051554051555052555052555050575049575049574048573050573051573052572051573050602049604050602049600050600051602052602051602050614049614050613049612050612051612051613051614050621048623049622049621050621052620051620052622050634050635050633048632050632051632051633051634050640050639049637048636050638051636050637050638050649049649048649049649050649050647051648051649049678048679048678049678050678050678050678050678051689049688049687048687050688051688051689051690049694049695050693050693050693052692052693051695000000049715050715049713000000051715000000000000052038051038000000000000000000000000000000052038050051050050050049050048051050052050051051051051051052051052050051050050050051051051053052053052051063050063050062050061050062051061052062051064051077049076051076050075051075052075052076051076051083050085049084050083051081052081051082053083051091049091050090049089051091052089052090052091051102049102050101050100051100053098051101051101051104050102049102049102051102051101051103052104051118050118050117049118051116052116051117051118051133051133051133050133051131053131052132052133051139050137050136050135051137052137052138052139)))
 (.node 2 (.node 1 (.leaf 51149050149050148049147051147052147052148052149051168051167051167050166051166052166052167052168000000051183051182051181000000000000000000000000052193000000051192050192052191000000000000000000052222051220051220050218050219051219052221052222051224050226050223049222050223000000000000052224000000000000000000000000051229052229000000000000051269049271049268049267051267051268051268052269051276050276050275050274051274052274053274052276052319051319050318050317052318000000000000000000051321051321050320051319052319000000052320053323051383050383050382000000000000000000052382052383051392050392051391050390051390053389053391052392052393050393050392051391052391053391052392053393051398050398051397050396051396053396053397053398051409000000000000000000000000051407051408052409051418050418050417050416051416053418053418053419050424050425050424049422051423053422052424051424051459050461050458050457052458053458052458052461050466049467050467049465051466053465052467051467052473050472049473050472051472053471052473052474051478050480050477051476051476051477051478053480052482050483051481051481051481052481051481052483051484051485050483051482052482052484053485052484051497049497049497050495051495052495052496052497050505050505049504050503051503051502052504052505051524049524049524049523050522051523051523052524051529049529051529049528051527052527052528052529050535049535050535049533051534052534051535052534051536049537050535049535050535052534052535051536051573050575050574050573051573052571052572052573051579051579051578051578052578053579052578053580)
 (.leaf 52590050590050589050588051588053588053588053590052592051593050593050592051592053591052593052594052599051598051597050597052596052597052598052599051609050609050608051607051607052607052608052609051617051618051617050615052615052615052616052617051623049624050622050621052622052621052622053623051636050638050637050634051634052634052635052636051644051643050643050642051642052642053643051643051646050646049646050646050646052646051645051646051659050659050658049657051657051657051657053659050663049663049662050662051662051662051662052664051664050664049663049663050663052664051664052666051684050684049683051683051682052684051684052684051703049704049704050703050702051702052702051704050708050710050709050708051708052708052709052710052038052038000000000000000000000000054038053038052047051049052046050047052045052047052047054048052056052054051053051052053052053052053053053054051058051058051055052054052056053054052055052057052062050062050062050061051061053060052062053062051076051077051076051075052075053073053074053077053087051087052087050085052085052085053086054088052095052095051094050093052093053093053094053095052109051109051108051107052107053107052108054109052114051116051115052113052112053112053113053114051118051118051117051116052116052118052118053118053123050124052122052122052122054120053123053124052133051133051132051131053131053131053132054133051139051140051139051138052138054136054138054139052148050148051147051146053144053146052146053148053157050157051156051155051154053155052155053157052188052188051187000000000000000000000000000000))
 (.node 1 (.leaf 50223052222052222052222054221000000000000052224051224051223050223000000000000000000000000052382051382000000000000000000053380053381053382053391052391051390052389053389053389053390053391053416051414051413050413052414054413054415054415051428051429051428051427052427053427052428052428052430000000000000000000052428052429052429053430051443051442051441050440052442053442053443052443052444051444051443051442051443052443052443053444052490051490050488052488052488053488053489052489052500050501052500051498052498053498052500052501051506051506050505051504052504052503054505054505051511050511051510051507052509052508052509052510052513051513050514051513052513052513052513052515051516050516050514051513052513052515052515052516051521051522051521000000000000052520052520053520052573051573052572051573052571053571053572053573053584051585052583051583052583053583054583053585052585051587052585051585053584053585054586053587052624051624051623052623052622053622053623053624053628052627051628052625053625053625053626053627052636051636051635051634052634054634053635053636053643051643051642051641052641053641053642053643053654052652051651051650051650054652054652054653052672051674050672051670051670052671052671052672052674051674050674051674052672052672053673052675053689051690051689051688052688054686053689053690052696050698052696052695053695054694053695053696051702050702050701051700052700052700053699052701051716000000051715050713052714052713052714052715053048052050052047052046052047053048055047054048053054052056052053053052053052054052053053053055)
 (.leaf 53080052080052079053078053078054076055078053079053097053098052096052095053095054095055097054097053104052104051103051101053102054102055103055104054109052109052108052107053107053107054108054109054131052130053130052128053128055129055129055131052151052151052150052149053149053148054150053150053163052163052162051161052159054161053161054163053260053260053260052258000000000000000000054260053264051264051263053263053262055263054263055265054273052274053273053271053272054272054273054274000000052276053274052274054273054274000000000000000000000000000000000000000000054377053379054379053381000000000000000000000000054379053380054381053388052388053386052386053386054386054387054388052405000000000000000000000000053403054404053405053407051407052406000000052405053405054406055407053424052424053422052422053420054420054421054422052428051428052428052427053427055427055428055429052431051432052430051430052429055431055431053431053443053443052442052441053441054439054442053442053455052455052454051453052455054455053455054455053462053462052463053461054461055461054461054462052468051467052467053465053466055465055465055467053468052468052467051467052468055467053469053469052483052483051481052481053481054481055481054483053492052492052491051491052491054490054491055493052525052524051523051523053524054522054523053525053533052533052530052529053531055530053531054533053540052540052539053538053538054538054539054540053544052546052543052542052543055543055543054544053551051550051549052549053549054549053550054549053564051564051564052562053564055563054563053565)))))))
 (.node 32 (.node 16 (.node 8 (.node 4 (.node 2 (.node 1 (.leaf 52569052568052567052566053568054568053568055570053580052578053579053578053578053576054579053579053603052605052604052603052601054601053603053604053611052611052610052609052608053608053609054609052614051614051614051613053613053612054614054615053628053629053628053626053626053627053627054628053635052635052634052633053633054633054634054635053643053643052642052641053641053641053641053643053648052650052647051646053646053648053648053648054656051657052656053655053655055655055655054655054661051662052661051659053660054660054661054662052666052666051664052664053664054664053665054664052678052679051677052675053677053676055678054679053690052692052691053689053690000000054691054692055040053038054038000000054038055036054038055040055059054059054059053057054059056058056059055059054065054066053064054065054063054065054065054065054071052072052072054070055069055069055070054072053075053077053074053073054075054075055076054077055078053079053078053077053075054077055078055079054094053094053093053092054092055092055093055094054097053097053096053095054095055095055096056097055104053104052103053102054102056100055103055104054111053111052110054109054109055109055110055111054122054120053121053118054118055118054120055120055124053125053124053123054123054123054123056124054132053132053131054131055131056131056131056133055136053135054135054133055133056133056135056135055169053168054168054167054168055168056168055170054174053174054172054172054172055172055173000000000000053175052175054175054175000000000000000000054377000000000000000000000000055377056378054378)
 (.leaf 54389053389053388053387054387055387055388055389054404052405000000000000054402055402056404054405055412054412054412053411054411056410056411055411054421053421053420053419054419055421056422055421054426053426054424053424054422054422055425056425054442052443053443053442054442055440054443055444054455052455053452052451054453054452054453055453053464054463053462053461054461056462055464055465054476054477054477054474054474054474056475055476054483052483053482053481054481055481055482055483054517053517053516052516053515055515055516056518054522053524053523053520055521055522056522055522054539053539053538054538055537055537055538055539054549053551053550053549054549055547055548056550055557053557052556053557054557055555055556056557054597053597052597053597053595055595055596055597054600052600052600052599053599054598056600056600053615053615052614052614054615054614056616054617054620053620053619053618053619054619055619055620054635053635054634053633054633055633055634055635053646053645052644053643053643054645054645054646053672052672052671052671054672054672054672055672055681053682052681054679054680055680055681056680054684054683054682053682055681056680055681055682000000054686053687054685054686055686000000000000054697053699053696053695054695055695055696055697054705053705053704052701054703054702055704056705055710052709053709052708054708056707055709055710055029000000000000000000000000000000056028057029055035055035055034055034055033055033056034056035056055053053054052053051054052056053055053056055055089054089054088054087055087055088055088056089))
 (.node 1 (.leaf 55098054098054097055097055096056096056097057100055112054112054111054110055110057109056111056112055117054117054116054115055115055116056116056117055143055143054142054141055141056141056142056143055148054146055146054144055144056144056145056146055154055154054151053150055152055151056153055154054156053156053156054155054154055154055155056157000000000000000000000000000000056206055208055208000000000000000000000000000000055208056209055210056264054263055263055262055261000000056262056263056269054268055268055267056267057267057268057269055373000000000000000000000000056371056372056373055381054381053380054379055381056381057382057382055388054388054387054386055386056386057387056388056432053431055431055431056431057431057431057431056434055433054432053431056432057431056432056433055438055436055436054436055436056434057437055437054443053442054442054439055439056439055441056441055465055465055465053464055465056463056464056465055468053469053469055467055468056466056467056468055476054476054475054474054474056474056475056476054491054491054490053490055491057489056492056493056496055495053495053493055493055493055494056497055500055501055500055500055500057498057499056502056508055507055506055506056504057504057506057507056512055513055511055510055511056509056510056511055515053515053515053515055513056513055514055515055525053525053525054523056523057523057524057525054532054533053531055530055531056531056532055532055547054549054548053545055547056545056546056547056555054556055554053552055554056552056553056554055556053557054557054556056555056554056555056556)
 (.leaf 55565055565053565054563055563056563056564056565054576054576053574053574055574056574056575056576055588053590054587053587055588056588055588057589055596054596053595054594054594055595056595056596055608055608053606053606055606055606057606055608055621054621054620054619055619056619055620056621055638054638055637054636055636057636056637056638055654054654054653054652055652056652057653056654055661054661054660055659055659056659055660056661054668053668053668054666054666055666056667055668055682054684054683055681056680056680056681057684055696054696054695055694055694056694056695056696055709054709054708054707055707000000000000000000056031054032055030055029057029057029057030058032056048056048055047056047056046057046056047057048056058056058056057055056056056057056058056000000056062055062054062055060057060057060057061000000056069055069055068054065056067000000000000057067055079054079055079055078056078057076056078057080056083055083055082055081057082057081057082058084056094055092054091055090056090057090057093056092055113054113055113055112056112057112057113057114057123056124054123054123056123057121057122057123056149055149055148055147056145057147056147056148056149054150055150055149056149056148057150057151056158055160055159055158055157057156056158057158057165056165054163055163056163057163057164058165056168055168056167055166056166057166057167057168000000000000055173055172056172057172000000000000056205000000056205000000000000000000058205057205056264056264056264055262056262000000000000000000056270056272056270056269057269000000057269057270)))
 (.node 2 (.node 1 (.leaf 54273056272056273057273000000000000056372055372000000000000056370057370057371057372056379054378056378055377056377057375057378058379056388055388055387055386056386058385058386057388056403056404055402000000000000000000057402057403057408056407056407056406057406057405057406057407056413056414056413055411057411058413058413057415057423054422055421056422057421058421000000057424056427055427056425055425057423057425058425057425056453055453054453054452056451056452057452057453056476055476056475054474056474057474057475058477056488055490054488055488056488057486058489057490055493055493055492054491056493057493057494057495057504056504056504056504057503057502057503057504057520056519056518056518056517057517057518057519056527056527055526055525057525057525057526057527056532055532054532055532056532058531058532058533056566055566055565055564056564057566056565057566055570054571055571056569056570057570057571057572056576054576055575055574056574057574057575056575056596055596055595054594055595057594056596057598056601054603056600056600057601057601058602058602056613054614056613055613057613057613057614057615056619054618055618054617056617057617056618056618055620055620055619054619055619056619056620056620056621055621055620055619056619056620056620056622056627054627055626055625056625057625056626057627056637055637055636055635056635058635057636057637056643055641056641055639057641057641058641057641057653054652055652055651056651057651058651058652055666054666055664054664056665057665056665057665056667054668054666054666055666057665056667056668)
 (.leaf 56674055672054672056673000000000000000000000000056678056677055677000000000000000000000000000000055680056678056677000000000000000000000000056695055695055694055693056693058694057694057697000000055707055706056705056705000000000000000000057032056032056031056030057030058030058031058032057041056041056040057039056040058041057041058043057046056046056045056044056045059045057045057046057050055050056049056048057048059048058049058050058056056057056056056055057055058055000000000000057076056078056077057074057074058074057076057076057082055083057082056080056081058082057082058084057094055094055094056094056092058094059094059095058101057101057100057100058100058100059100059101058104056105057103056103057101058103059103059105056108056108056107057106058104059105057107059108057137057138056136056135058135058135058136059138057163056163056162057160057161058161058162058163057205056205056204000000000000000000058204058205057212057213056211055210057210058212059213058214000000057267057266056264000000000000000000000000057374056376056373056372057372058372057373058374058385056386056385057384058384059383059383059386057408056408057408057407057406058406057407059409058425056426057423057423057424000000000000059425057432056432057431057431057430057431057432057432057445056445056444056441057443057442058444057444057448055450055448057447057446058446059448058450057456056456057455056454057454058454058455059456057463056463056462056461057461058461058462059465057468056468056467056466057468059467059468059470057471057472056470056469056469059471059471059471))
 (.node 1 (.leaf 57474056474056473055473058473059473059474059474057483055483057482055481057481058481059482059482058484056483055483055483057483059482058484059485058491056492057489056488057490059489058489059491056494055494055493056494057494059493058495057495057528056528056527056526057526059526059527059528058538057536056537057536057536059536058537058538056545055544055544056542056542058544057544057546057556056556056555056554056554058554058555059557057573056573055570056571057571059571058572058573056579056579055579056579056578058577057579058579056585055585056585056584057584058584059585058586057593055595056594057593057593059593059593058593058607057606055606057605057605058605058606058607057612056612056611056610057610058610058611057612057630056630056629055628057628058628058629058630058635056635057635056633057633058633059635058635057637056637057636056635058635058635059637058639058645057645057645057644057644059644058645059644057659056659056658055656057657059656058658057658056659055660056659056658056657058658057658058658057661055661055661056661057659057661059660057662058698057698056696056695057697000000000000000000058700057700057700056698057698059699058699000000057701057702057700057700058700058699000000000000059045056045057045056042058044060043059045060045058050057050057049057048059048059050060050059050000000000000000000000000000000000000059057058058058085058085058085058084059084060084059084058086058089056087056087058085058085058086058087059087059100057101058100058099058099059099059100059101058119056118057116056117058117059115058117058117)
 (.leaf 59140058139058138057137059138059137059138059139058143058143057142056141058141060142060142060143057149057150056148056147058148060147060147059150059153056153057153057152058152060150058152059154058214057212057211057210058212059212059213059214059216000000057216058214058215060215059216060217058371057371057370000000000000000000000000059371059380057380058379057378058378059378060379060380059380058381057380058379059379060379060380060380058389058389057388058386058387060386060386060389000000000000000000057394058394059394058395059396058437056438056438057437058435060436058437058438058477057477058477057475058475059475058476059479059488057486058486058486059485060486060486059488058497056495056494057495058495058494059496059497058517057517057516057515059516058515059516059517058534058533058532058531058532059530059531058533058540056541057539056540057539059540058539059540057546057545056545057545057544059545058545058545058548057548058547057546058546060547059549058548058564057566057563057562059563059562059563059564058575057575057574057573058573059573059574059575057579056579056578057578057577059576058578059578058598057600058598057598058598059598059599059600058629057629057628057627058627060627059628059629059647058647058646058645059644060646060646060648058649058648058647058646059646060646060648060648059650057651058649058648058649060648060649060649058651058652058651057651059650060649059652059653059667056667057665056665058666059666060666059668058687057687000000000000000000058686060688058687057696057694058694058693058692000000000000000000))))
 (.node 4 (.node 2 (.node 1 (.leaf 59030058030058029000000000000000000000000000000059038057038058037058036059036060036060037060038059051058051058050058049060050060049060050000000060080058082059080058080060079000000000000000000059095058095059095059094059093060095059094060095059105057107059105059105060104060105060106061107060111059111059110058109059109061109060110060111059114057115059114057113058113059113059113060114059124058124057122059122059122060120060121060122058130057129057128057127058128059128059128060128059132058132057130057129058130060128060131059130058155058156059153059153059154059154060155059155058161058161058160058159059159060159060160059160059211058211059209058207059207060207059209060209059214058214059213058212059212061211061212060214000000000000059219057219059219060219060220000000059372058372058371058370000000000000000000060372060379059379058378058377059377060377060378061378059427058427058426059425059425060425060426059427060436059434059434057432059434061433059434059435059441057442059441059441060439061441061441059442060461057460057460058457059459059458061459060461059462058462058461058460058461061461060461060462059467058465059465059465059463060465060466059467060481059482058481058480059480060480060481061482058494058495059493059492059493060493060494060495059503058505057503057502058502060501059502060503059511057512057511058511059511059509060510060511058515059516058514058513059515059514060516059516059518058518058517059516059516059517059517060518059530058532058531059528059528061530061530061530059554057553057553057552059552061550060553059553)
 (.leaf 59573058573058572059571059571060569060570060573059584058584059582059581059582060582060583060584060613058613057612058611059611060611060612060613059631058631058630057630058630060629060630060631059655059654059653058651059653060653060654060655060658057658058658059656059657060657061658000000000000059670059668059667059668060668000000000000060688000000000000000000059686060686000000000000060037058037059036059035000000000000061036061037060045059045060043060043061042062042061044062043060091060092058090059091060091061089060091060092060096060096059095059094059094061094060095060096060122059124059123059122060120062122062123061124059135058134059133058132060134061134061135061136061143060143060142060142060141061141061142061143061151060150060150059150060150061148061149061150000000000000000000059170060170061170000000000000061378060379059378059377060377062377061378062379061386060386060386060384060385062385062385062386061393059393059392060391061390061391061392061393060426059426059425059424059424061424060426061426061433059434059433060432061432062432061433061434059452059453060451060451060451060450060450061453060461058461058461060461060461062460062460061461059470059471059470059469060469060469061470061471061482060481060481059480060480061480061481061482060492060492059491059490060490061488060490061492060510058511059511058508059509061508061509061512061520060520059519059518060518060518061519061520060526059526059525060524061525061524062525061528059538059539059538059537060537062535061538061539060542060543059541059540059540061542060541061542))
 (.node 1 (.leaf 60569059571059570059567060567061567061568061569059606059607058606059605060605061605060605061607060606059608059607058606059606060605061607061608060630059630058630059630059629061630060629061630061645060645059644060643060643062643061644000000060654059654059653059652060652000000000000000000060660060661060660059658000000000000000000000000060663059663060663059663000000000000000000000000061036060036000000000000000000000000000000000000061039061040060038060037061037000000000000000000061093060095060092060091060092063091062092062093061101060103060102060101061101061100061101062103061135059134060134060133061133062133061134062135061151061151061151061149061149061150062152063153060159060159060158060157061157063157062158062159062166060166061164060164061164062164062165062166061169060169059168061167061167062167062168062169061204060204000000000000000000000000000000062204061214060214061212061211061212062210062211062214000000000000060220060219061219062219062220000000061228000000000000000000000000000000000000062228061382061383061381000000000000000000000000063383061390061388061388061387062386062386062387062390061393061393060392061390061391062391063392062393062432061432060431060428061430061430062431062432061434061433060433061432062432062432062433062434061448061449061448060446062448063447062449063449062456060455061455060455060455062453062456063457062460061461060461061459061460062458062459062460061463060465060462060461061461063462061462061464061466060468059467060466060465061465061466062466062472060473059472059470061471062471062472063472)
 (.leaf 61474061474059474061473061472062472062473062474061482061482060481060480061480062480062481062482061509059509059509059508061507062507061509061510061532060532061532061530062531062530062531062532061539060541060540059538061539062537062538062539061548060548061548061548062546063546063548062550061550061550061549060548061548062550062551063550061555061555059556060555062554062553062554062557061562060562059561061560062561063560062561062562060583060583060582061581061581062581062582061583062593060594059592060590061592061592062593062594060598059598060597060596061596062596062597061598061608060606059606059606060605061606062607062608061620061619059619060618061618062618062619062620061641061640061639060639061637062639063640062641062643060643060642061640061641062641061642063642061680000000000000000000000000000000062679062680000000000000060686059685061685000000000000000000000000061044062042062042000000000000000000000000062048061048061047061046062046063046063047062049000000061089000000062089000000000000000000000000062095060095061094061093062093063093063096062095061104060105061104061101062103062102064102063103063128060126061125060125061124062126063127063128062141061141061140061139061139063139063140062142061145061144061143061142061143062143062144062144062154061152061151061150062152062151063153062154062161062161061160060159062159062159063160064161062210061212061209061208062208062209063209063212062217060216061216060214062215063215063216063217062220061220061219061218062218063218062219062220062230061232061229061228062228063228062229063232)))
 (.node 2 (.node 1 (.leaf 63376062377061376062375063374000000000000000000000000062379061378062377063376000000000000000000062391061391061390061387062387062389062390062390000000000000061395061394062394000000000000000000062407000000000000000000000000000000000000000000062417061417060416000000061416063415062417062418062420060421062420061420061418063420063421063422062453060455062453061453062451064451064452064455062475062475061474061473062473063473063474063475062482061482061481061480062480062479063481063482062495061493060493061493062493063493063494062495062500060501060500062498062498063498062499063500062507061507061506060506062505062506062508062508062518061518061517061516062516062515063517063518063528062527061528062525062525063525063526063527062539061539060539061539062537063537062538063539062566060566062567062565062564062565063565062566062568061568061567060566062566062566062568063568062587060588060588061585062585063585063586064588062594062593061593061592061592062592062592062592061603061602060603061602062600063602062602062603062680061680000000000000000000063678063679063680063046062046062045000000000000064044064045063046063092062092063091063091000000000000000000064092063106061106062105061104063106064104064107065108062115061114061114062114063114064114063114064116062119062120062119062118063116064116063118064118063119062121062120062119063117063118064118065120063139061139062138062137062138063137064138064139062148061148062148062145063147063147063148063148063168062168062167062166063166065165064167064168000000000000000000000000063174064174000000000000)
 (.leaf 63209061209062208062207063207064207063209064209063215062215062214062211063213064213064214063214000000000000000000000000000000063224064224063225000000000000000000062231063233063233063234064235063409063409062408062407000000000000064408064409062414062415062414063412063413064411064412064415063422062420062419061418063420063420064419064422063442063442062443061440064441064442065443063442064470062472062471062470063470065468065470064470063483062483062482062481063481064481064482064483063496062496062495061493063494064494064495063496063520062520062519062518063518063518063519064520062522061521061521062520063520064520063521063521063537062537062536062535062536064535064536063538062565062564062563062562063564064564064565063565062573061573063573062572063572064572065573064574062576061576062576063575063575063575064576063577062584061584062584061583063583064583064584063584063602062600061599061599062599063600063600063600063608062608062607061606063606063605064607063607063610061611061610062610063608063608064609063611063635062635062634063634063633064633064634064635000000061642062641063640063640065639000000000000063679062679000000000000062678064677063679064679064044000000000000000000000000000000064044064044064103063103064102062102064101064103066103064104063107063107063106062105064107064107066108065109064114063114062112063112064112065110065113065114064126063128063127062126063126064125064126064126064130063132062131063130063129064129065129065130064138062138062138062138063137065136064137065138064162064162064161063160064160066159065161066161))
 (.node 1 (.leaf 63170062170063169063168064168065168064169064169064206062207063205000000000000000000000000065206063228062227062226000000063225065225064226064227000000000000062351064351064351064351064352064353064408063408000000000000000000000000000000065408064412063414063413063412065410065412064412066413063423063422062422063422064422064422064423064424065429063428063427062426064428064428065429066430064431063431062431063431064431066430065432065433065446064447064446063446065445065446066446065446064457064457064455064455064455066454064456064456064466062466063465063464063465066464066466066467064484063484063483063482064482065482064483066484064507062508062508062506064505065505065506065507064514062515063513063512063512064512064514064515063521063521063520062519063519064519064519065521064535062536064534064533064533066533065534065535064542062544063543063540063540065540064542065542064544063544062544062544064542065542064543064545064559063559062559063557063557065557064559065559064578062579063579063578064576065576064578065578064584062583063583062580063582065580064582065584063607063608063607063606063605064606064607065608063627063626062626063626064626066624065625066628064635063635064634063633064633064634065636066637000000000000000000063683064683066681065684065685065093064093064092000000000000000000000000000000065116064116063114064114065114066114066115066116066118063118064116063116065117067117066118067119066123064123064122065120065121066119066122066123065142064142065142065142066141066140067143067143065149063148063148063147065147066145067146066147)
 (.leaf 65152064152064151063148065150067148066151066152065174064174064173063171065172066172066173066174065206064206000000000000000000000000000000000000064212064213064212064209065211066209066210066211065218065218064217063216065216066216066217065218065236000000064235063234065234066234066235066236000000000000000000000000065355066355000000000000000000064393063391065390065391067390067391000000065418063420064419064416065416065417067417065419065435065435064432064431065433066433066434065435064440064441064440064439065439066439066440067441065451064451064450065450066450066451066452067452066462063463065462065461065462067462066461066462065473064473064470065470065469066471065471067472064473064473063473064473065473067472065473066473065475065476065474064473064473066473067475066475066484064484064483064482065482066482067483066484065510064512063511064508065508065508066509066510064521063521063521064520064519066520065520065522064524064525064524064521065523065523065524065524064525063525064525064524064524065524065524065525064527063525063525064525064524065524065525065525064561064561063561064559065559066561065561066563065569064569065569063568065567066567066570066571064578063578064576063577064576065576066576065577065580063582063579064578065578066578065580065582065587064587063586063586065585065585065587065587064603063602063600063600065601065601066602065602066604063605063603063602064603065602066602065603064620064620064619065618065618066618066619066620064631064631064630063630064630065629066630065631064677064677063676063676064676066675065677066677)))))
 (.node 8 (.node 4 (.node 2 (.node 1 (.leaf 64684065684065683066685000000066098066098066098065096066096000000067097067098065106065106064104066103066104067102068104067104067111066110066110065109066109067109067110067111066116065116064115065114066114067114067115067116065125065125065124066123066123068122067122067125067131065129064129065127066129066129067130067131066137064137065136065135066135067135066136066137067153065154065153065152066152066151068152068153066161065161066159066159067158067159066160067161065169064169065168065167066167067167067168067169066175000000000000000000065175066174067174066176000000000000000000000000066179066178067180066181000000000000000000000000000000066181066182067183066211064212064212065211066209067209067210066211065218065218065217065216066216066215066216066217066236065236065235065234066234067234067235067236066377000000000000000000000000000000067376066378000000066384000000000000000000000000000000000000066386066387066385066384000000000000067385067388066404000000064403000000066402067402066404067404065408000000000000000000066407066407066407066407066412066413064412065412066410066411066411067412067417065417065416064416065416066417066417067417065422064423064422065421066421066421066421068422067427064428066426066425066426068424067425067428066442064440064440064439066440067440067441067442066451066450066449065449067448067449067450067451066463065463066462066462066461068462067462066464066479065481065478064477067478067477067478066480066487066487064486065485066485067485067486067487066507065505064505064503066505067505067506067507)
 (.leaf 66516065518064517064515066514067514067515067516066537065537065536065535066535067535067536066538066543064543065542064542065541067541066543066544066550064550065549064549066550067548067549067550065583064585065584064582066583068581067582067583065597065598065597064595066596068595068595067596065612065612065611066610066610067610066610067610065626066628065625066624066624067624066626067626065629065630065629066628065626067626066628066628000000000000000000066637000000000000000000000000065673000000000000000000000000000000066672067672066675064676064676064673066673066673066674066676066681066681065682066681066681067681067682067683000000000000066042000000067043000000000000000000067097066097066096066095000000000000000000000000068104067105066104067103067101069101069104069104067112067111067111066110067110068110067111068112067131067131065129066129066129068129067129067130068146066145067145065143067143068145068146068147067146067146066145067145068145068146068147068148066160066160067158066158067158068158068159067159000000000000000000000000067183068183068184067184067209066209066208066207067207068207068208068209067220065219065218065218066217067218068217068220067223066223066222066221066222067221068222067223067225065225065225066223067223067223067225068225066227066227066226065225067225068225067227068227067236066236066235066234067234067234068235068236000000066355067354067353000000068351068354068355000000067390067389067388068388000000000000000000067423067424067423065422068422069421068422068423067457067458067456066455068456068457068458069458))
 (.node 1 (.leaf 67465067465067465066463066464068463068464068465066480066479065478067478067477068477067479068479067485066485066484067483067483068483068484067485067507066507066506066505067505068505068506000000067517066517066516066515067515068515068516068517067520065522065520066520067518068518068519068520066528065528065525065525067526067526068527067527067554065553066551066550067550067551067552068552067584066584065583065583067582067583068583068586067592066592066591065592066591067591068591069592067597067598065597065597068595069595068596067598067615066615065613066611067613068613068614068615067622066622065621066620067620067620067620069620066624065623065622065622067623067623067623067624067630066630065629065629066628068630067630068632067680066680066677065677067678067677068679067679067111067111067110067109068109070109069110069111067138067138066138066137068138070137069137069138069144068143068142068142068142069142068142069144068151068152066151068150069151069151069152068153068171067171067170067169068169068169069170068171068214066215068214068213068212069212069213069214067221066222066221066221068221068221069222068223068238000000000000067236068236069236069237069238068350067352068350067348000000000000000000070351000000000000000000000000068355070353069356069357068376067376000000000000000000000000000000000000068385067385000000000000000000000000000000000000000000000000068388067388068386000000000000000000068424068424067423068422068422069422069423070425068435066434068433066432068433069433070434069435067440067440068439068437068438070438070438069440)
 (.leaf 68471068471068471067469068469068470069470070472067485067485067484067483068483069483069484069485067493067492066492066492067492069490068492068493068495067495067492066492067492068492068493069495068506067506067505067504068504069504069505000000067556066556066555067554068552069552068554068555068568066569067567066567068568068568069567070569068576066576067575066575067575068575068576069576068583067583067582068581068583070582069582068584069588067589067588067585068587069587068588069589067616066616067615067614068614070613070614069614068672067672066672000000000000000000069671069672067679067680068679067678067677068678068679068679069110068110068109069108069108069106070107070110068112067111068112067111069111071111071111071113069116068116067114068112068112069113070113069114068118068120067119067118068117069118070117070120069123068123068122067120069121069121069121069123069129068129069127068127069125070125070126069129069137067138068138068137070136070135071137070137069149068149068148068147068147069147069147069148068161068162068159067159069160070160070161070162069177068177068176068175069177069177070178070179000000000000000000000000000000069192069192069194000000000000000000000000000000069194069194000000069217068217067218068215069215070215070216069218068223067223068222067221068223070221069223069223068230067230068230068227069229070229071229070229069237068237068236068235069235070235070236070237000000000000000000000000000000070345069345070347000000000000000000000000000000069345070347069346000000000000000000000000069357070357000000000000)))
 (.node 2 (.node 1 (.leaf 69409069409067408069407070407070407069408070409068416068415068414068413069415071413070416071416069422068422069421067421069420071420070421070422070430068429067429067429069427069429070430070431069435068435068434068433069433070431070434070435069445067446067446068445068444071444071444070445068452068452068451067450069450070450070451070452068476068476067475068474068475070474069476070476069478067479068477068476068476070476069479071479069484068484068483068482069482070482071482071483068491068491068490067489069489070489069490070489069498068498067496068496069496070496000000070498000000068506068505068504069504000000070505069506070521069521068520068519069519070519070520070521068537068538067535067535068535070534069536070536068551067551067550068548069550070548069550070550069552068552067552067551068551070550069552069554069555068555067556068555068554069555069555069555069587068587068586068583068584069585071584069586069595069595068594068593069593070593069594069597069600068600067598068596069598070598070599069599069610067612068609069609070610070610070611070612070626067626069624067624069625071625071625070627069673068673068672068671069671070671070672070673000000000000000000067682069683000000000000000000070110069110070109069108069106071108072109070108070125069125068125069123069123071125070125071127070135070136069134068134069134071135072136071137070143068142069142070140070141071141071142071143069149069150069149069146069147071148070148070149070154069154068153069152070152070152071153072154070161068161069160069159070159071159072159072159)
 (.leaf 69176068175069175069174069174070173070174071176069190000000000000069189069189070189072190070191070203000000000000000000000000071201071202071203070206069206069205069204070204071204071207072206070210069210069209069208069208071208071209071210070215069215069214069213070213071213071214071215070236069236069235069234070234071232071235071236070345000000000000000000000000000000000000070343000000000000000000069357070357072357072357072358070403069403069402000000070401070402070404070404070405069405069404069403070403070404070404070406070428070426070426070425070424072424072427072427070443070442070442070441070441071441070442071441070452068452069451069450070450070449070450071452071457068457069457069456070456071456070456072457070467068469068468068466069466070467071466070467071483069484069483069482070482071482071483071484070498069498068496069496070496071496070497071498070521070521069520069519070519071519071520071523070527069527069526069525069525072526072527070527070532069532069531068531069530071532070532071534070541069541069540068538070539071539070539070541070547069547069546068545070545072546071546071547069570068571070569069567070569070569070569070570070574068575069575069574069573071572070574072574070584069582070582068581071580071580071581071584070602068601069601069600069599070600070600071602071606068605069606069605070605072604072605072606071615069614070614070613070614071614072614072614070621070622070621070621070619071619071620071623000000000000000000000000000000070631070631070631070672069672069671000000000000000000071671071672))
 (.node 1 (.leaf 69678068678069677069674070676071676070676071678071108069106070107069105071106072106072107072108070124069123069123069121071122071122071122072124070146069147070144069144070144071144071145071145072159070161070160070159071159073159073159072159071169070169070168070165071167072165072168072169071177069177069176069174070174071174071175072175000000000000000000069194071195072195000000000000071203070203070202000000071201072201072202072203071210070210071209069208071208072208072209072210071215070215070214070213071213072213072214072215071222069223070221070220071220071221071221072222072238070238070237070236071236072236072237072238000000000000000000070242071242000000000000072242070404070402070401070400071402071401072403073403071413071413071413070411070412072411072412073414072417070418071416070416071414072416073417073418070437069437070437070436071436071435072437073438072460071460071460071459071458073460073460073460071462069462070461071460072460073460072461073462071474070474070473070472071472072472071473073475071482070482070481071479071480073479072481072482000000070495069493069492071493072493000000071495000000069499069498070498071498071498071498071499000000070503069500069500000000071500071501071502071512000000070511071510071510000000072511072512071515070515070514070513071513072513072514072515071519070519070518070517072517073517072518072519072544071544069543069543071542072542072543072544071548070548070547069548071546072546072547072548071589070589070586069586071587071587072588072589071599070599070598069597071597072597073596072597)
 (.leaf 71606071607071606069605072605072606072607073608071619070619070618070617071617073617073620073620071626071625071625071623071624071624071624071626071672070672070671000000000000000000072671072672000000000000000000071681000000000000000000000000073109072109071108070105072107073107073108073109072111071109070108072109073109073109072110072110071128071129071128071127072127072127072127073129072132070131070131071130072130072130073131073132072153071153070152071151072151073151072152073153071170070171071170071169072169072169073170073171072171070173071170070171071170073171073172073173071182070181071181071180072180072179073181072182072184072184070183070181071182072182074182074183072190072190070189070187071188072188073189073190000000000000071195071194072194073194073195000000071221071220070220071220072220073218072219072222072223071223071222070221071221072222073222072223072232071232071231071230073232073232073233073234072239072238072238071237072237073237073238073239000000071242071241072240000000000000072240072241000000000000000000000000000000000000000000072353000000072358072357072357072357074357073358072358000000000000000000000000072387074386072388072389072423072424072423072421073422073421074422073423071432071433071432072430072431072430072432072432073441070442071441071440072440074439074440074440072447071447070447071445072447074445072447073447072465070467070466071463072463073463074464072465071470071470070467071466071466073466072468073468072475071475071474070473071473074473073474074477072484071484071483071482072482073482073483073484))))
 (.node 4 (.node 2 (.node 1 (.leaf 71495000000071494071493072493072493072494072494071500000000000000071499071498072499072499072501000000072505072504070503072504072503073505073506072519071519071518072517073517074519074519073519072537071539072537071535072535072535073536072537072551070552070552071549072549074550074551074551071557070558070556070556072556074554072556072557071561071561071560070558072559073559072559073561072573070574071572072571072571072572074573074574072583072583071584071581073583073583073584073585072591070593071592071591072589072591074591073591072603072601071602070600072601073601073602073603072612072612072610071610072610073610074611074611000000000000000000000000000000073636072636073638072672071672071671000000000000000000000000073672000000000000072678071678072678000000000000000000072110072110073109072108073108074106074107074108073114072114072113071112073112074112073113074114073119072121072118072117074117074117075119073120073126071126072125072124073124074124073124074126073139072139072138072137073137074137073138074139073165072165072164071163073163073163074164074165073173072171072170071170073171074169074170073172073203072203072202072201073201000000074202074203073207072207072206072205072206073206075207074207073213072213072212072211073211073212074212074213073218072220072217072216072217074216073218074218072223072223072222071221072222075222073223074223073229072229071227072227073227075226073227074227074345072344073344073343074343074342075344075346073383071384071384071382073381073382073382074383072397073396073396072395073393074393073395074395)
 (.leaf 73398073399071398071397073396073396074397074398072410072410073409072408073408075410075410073410073413073414072412072411074411074413075414075415074418072417073418073417074417074417075417074419074420073420073419072417074418074419074420075420073428072430073428073428074426075427074427074428072432071432071432071431072432073432073432073433074438072439073438072437073437074437075437074437073443071443071443071441073443073443073443073444073451072451071451072451072450073450074450074451074456072458073457071456073456075454075456074456073478073479073478073478074477075478075478074478073484072484072483072482073482074482073483074484073494071495071495000000072494073493074493074494073521071523072520072519073519074519074520073522072534071534073533072533073531074531074532073534073534072534071534073533073532074532073534074534073536072536072535072534073534074534073536074536073544072544072543072542072543074542074543074544073546072546072545072544073544074544073545075546073579072579072578073577074577075577074578075579072588072589072588071587072587073587073587075587073593072593073592072591073591075592075593075593073598073596072597073594073596073596075596073598073616073617073616072614074615075616074617075618073620072620073620073620073620074618075619074620073627072627071627071626074625074625073626073627072633000000073632072632073632074632075633074632073674073675072673072672073672074672074673074674074107073109073108073107075105000000075106075107074116072116072115073114075115076115075115074116074129073129072127072127074127075127075128075129))
 (.node 1 (.leaf 75136073136072134074133074134075134076134075136000000074141073140073139074139074138075140074140073152072152073151073150074150074150074150075152074170073172073171073170074168075168075169075170073176072177073176073175073174075175074175074176074181073181072179072178074177074179075180075181074203073203073202073201000000000000075202075203074209072210073208073207074207075207075208075209074212073212073211073210074210075210075211075212075232073233073232072231073230074230074231076232073243073244073243072241074242076241075241075244000000000000073248072247074247075247075248000000074359072358073358074357074357075355075356075359074371000000000000000000000000075369075370074371073381073380072379072379074378074379074380074380075401074402073402074400074401075399075400075401074406072407073405073404074404074404075405075406074419074418073418074417074417075417075418076419074426074424073423074422075422076423076423075424074440074440074440074439075438075438074439076441074447073447072447074445074445076446075446074447074450073450072450073450074448075448076450075450074459073459073458073457074457076457075458075459074466073466072465074464074464074465074465075466074484073484073483073482074482075482075483074484074494073494072494072494073493074493074494075494073505073505072503072503074503074503075504075505074555072556074554074553074553075553075554075555074564073564072563073562074562074561074562074563074586073586073585073584074584075582076583076584074605073607073606072605074605075603074606075607075633073633073632073631074631075631074632075633)
 (.leaf 74677074677000000000000000000075107074107074106075105000000000000076106077108076114074114073113074112075112076112075113076114074129073130074129074128075128075127076129076130074158074159074158074157075157077156075157076159075183074183074182074181075181076181076182075183075193074193074192074191074189075191076192075193075215075215075215074213075213077214077215076215076221074220075220074218076219077220076221077221075237073237075236074235075235077235076236077236075238073237073237075236076236076236077236077238000000000000074248074247075247000000000000000000000000075347075346075344075345000000000000000000000000000000075347075346000000000000000000000000075355074357074356075355076354000000000000076357074360000000000000074360075360076360076361000000074376073376074374073374074374076373076374075375074380074379074378073377075377075378075379076379074389074388073388074386075386076386075388075389075413074413073410075410075411076411075412075413074436074437075436075435075435075434075435075436076446074445075445073444076444077444077444076445075453075454073452074451076453077451076452076453075460074460074459073458075458076458076459076460075466074466074465074464074465077465077465076466074484074484073483074482075482077482076483075483075515000000074514000000075513075514076514000000074539074540074539074536075538075537076539075539074540073540074540074539074538076539075539076541075545073545074544074543074544075544076544076545075555074555074554074553075553075553076554077555075559073560074560074559074559077557077559075560)))
 (.node 2 (.node 1 (.leaf 75568073566074567074566075566076566075567076568075581074583075581075579075579076579076580077581076618074618075618075618076617077616076617076618075626073626074625074624076624077625077625076626075633075633074632074631075631076631076632075632076639073639074639074638075638076638076639076640075672074672000000000000000000000000000000000000076114076114075113075112076112076111076112076113076120076121076119076119077119078119078120077120075131075132075131074129076130077130077131078132075140074140075140074138076139078138078139078140076144075144076142075142076142078142078143077144075146075147074146075145075145076145076145076146077154076154074152075152076152078152078153077154077156075157075156076154076155077155077156077157075165075165074164074164075164077165076165076166076172074173074171075170075171077170078172078173076181075181075180074179076179076179077180077181076205075205075204075203076203077203077204077205077223076222076222076221077221077222078222077222077228074227076227076227077227078226078227078227076234075234076232074231076232078231077233078233077242075241076241076239077240078240077242000000076244075246076244075244077243000000000000000000000000000000075345076344000000000000000000000000000000076355076354075354076354000000077353076354076360075360075359075356076358078357077359076360076373074374075372074371075371076371076372077373076386075386075385075384076384076384076385077386076395075395075394075393076393077393077394076396075397075399075396075395076395076396076397077397076402075400075399074399075400076400076400076402)
 (.leaf 76411075411075408075407075408076409076409076410076423076423076423076421077422078421077422077423075434075435075434074431076431077431076433077433076440076441074439075438076438078439078440077440076452075450076450075448077449078449077449078451076459075459075458076457075458077457076458077461076477076476076475076474076473077473077474077475076478076479075477076477077477077476077477077478077484075485074484075483076483076483000000077483075489074491074489075489076489076489078489077489076499076499076499076499076497077499076498077499075505075506075505075504076504077502076504076505075509074508074508074506076507077507076507076509000000074513000000000000076512077512077513000000076516075516075515000000076514076515077515000000076565075565074563074562076563077563078563077565076579075579075578075577076577078577077578077579076583076583075582075581077581077581077584077585076594075596075595075594075594077592076594076595075599074598075598074597076597076596077598077599076603075603076602075601076601076603076603077603076609075609075608075607076607078607077608078608076620075620075619076618076618078618077619077620076627075627075626075625077625077625076626078627076640076639075639075638076638077638076639077640000000000000075646075643076643000000076645000000078110076108077108076106078106000000000000000000078128075127077125076124076124079126077126077126078132075131075131076130077130077130078131078132078151076151077149076149077149078149078150078151077157077156076156076155077155078155078156079157076161077162076161076160077160079160077160079162))
 (.node 1 (.leaf 77167076167076166075165076166077166078166078167077169075169075169076167077167078167077168077169078177076178077176076176077176079175079175078178076195075195076194075193076193078193077193077195077198075197075197075196077196077196078197077198078217076215077215077214077213079214079215079216078218076217077217076215078217079216079217079218077222077221076221077220077220079219078221079221078226077227077226077225078224079224079225079226078227077227077227077226078224079225079226079227078230075231077229077228078227079228079229079230078236077236076236077235077235079234079235079236077374076374076373076372076372077373077373078374077379076379075379075378077379077378077379077380077383076383075383076383077383078383077383077384076385076385076384076383077383077384077385077385076407075407075406076404076404078406077406078408077420077420076419076418077418078418078419077420077430076430076429077429077428079428079430079430077478076478076477077477077476078478077477078478077484077485077484075483000000077483079485079485077489075489075489076489076489079488078488078489076509075509075509076508076507077508077508077510077517076517076516000000077515077516078516078517077522075524076523076520077520000000077522077523077527076527076526076525076525078525078526077528077536075537075537076534076535077535078535077536077542077542076541075539077540078540077541077541076548076548076547076546077548079546078547078548077558077559077557076556077556078558077558077559077571076569075568076569077569079568078570078571076591076592076591076590077590078590078591077591)
 (.leaf 78611076613076612076611077611079610079610078611077619076619076618076617077617078617078618078619077634077633075632076632076631077632077632078634000000077105000000000000000000000000000000078105079110076111078110078110000000000000000000080110079116077115078116077115078115080115079116080117079122078124078121077120078120080120078122080123078150078150077149078147078148079148000000078149078173078173078173078172078173079171079172079173078189076188076188076187077187078187079188079189077200000000000000000000077198078198078199078200078209077209077208077207078207080207078208080209079238077240078238078236079237000000000000000000078368000000000000000000078366079366078366078366077409076409076409076407078408079408078408079410078412076412076410076409077409079410078410078410077413076414076413076413077412079413078413078415079440078439078439077438078438079438079439079440078445077447078445077443078443080444080444080446079448078449078448078448078446079446079447080449078453077453076452077451078451079451079452079453077457078456078455078454079455080456079457080458078463077463077462078462079462080462080463080464077483000000076483077482078482079480078482079484078504076505076504077502078502079502079503080504078509077511076509076509077508078508078509078509078525076525076525077523079523079523079524079525077536077536077535076535077535079534079535078536078565077565078563077563078563079563079564080565077584077584077581077580078580078581078582079582078602076603076603077600078600079600079601079602079609078608077608078607078607080607080608080609))))))
 (.node 16 (.node 8 (.node 4 (.node 2 (.node 1 (.leaf 79610077610078608077608079608080608080609080610077629077630078627076626078628080626080627080629078639076640077640076639078639079639080639079639079116078116078115078114079114000000081114081116079118078118078117079117079116081117081119081119079128077130079128077126078127080128081129080128079136078136079135078134079134080134080135080136000000078143078142078141079141079141079142079143079146078146078145078144079144080144080145080146079150078152078151078150078149080148079149080152080158079157079157078156079156081155081156081158078163078163078162077162079163080163080164080165078180077179077179078178079176080176079178079179078180078181077179077179079177079178079179080181079190078190078189078188079188079187080189079190080219079219079218079217080217081217080217081220000000079232079231079230000000000000000000000000079363000000000000000000000000000000079362079363079388078386077385077385079386080386080387080388079390079391077390078388079388080388080389080390079396077397078395077394079396080396079396079398079401079401077399077397079399079398079399079401079420077420078419078418079418079417080419080420080426078426079426079425079426081425081427081427080430079430079430079428080429081428080429080432080435078437079435079433079433080433081435081436080441078439079440078439079439081437080440080441079457079456079455078453079453080455081456080457079471078471077470078469078470081470079471079472079474079474078473078472078473079472079474080474079480078478077477078478079478079478081479080480079497078495077495077494079495079494079496080497)
 (.leaf 78502078501078500079499079499079500079501079501078514077514078514077513079513080511079513080515079525078525078524079523079523079524079524080525078536077536078535077535079534080534079536079536079544079544077542077541079542081541079543079544000000079545079545079544079544079544079545079545079548078548078547079546079546079546080547080548079557079556078554077553079555080553081555079557079557077558078558079556079557079557080558080559078562078560079560077559079560080560081561080562079568079567078567079566080565080566081567080566078582078583078580078579079581080581079581081583079595078593079593078591078591080591080592081595079598078598078597079595079596080596080597079598080608079608078607078606079606080606081607081607079624078624078623078622078622079623079624080624079629078631077629077629080627081627081629080631079639078639078638077636079635079636079637080637080135080135079134079133080133080133080134081135079147079147079146078144080145082145081146080146081155079156079155080153080154081154081155082156081183080183080182078181080182080182082183082183080193079191078190079191079191080190080191081193079202078201078201078200080201080201081200080201080210080211080209078208080208081208080210081212081215080215080214080213081213082214081215082215081215080216080215080214081214081215082215082215081217080217080216080215081215082215082215082216081220080219080219080218080217080219081220082221000000000000080225080223081224000000000000000000080366078366078366079366080364081364081365081366080381080381080381079379080379082381080381082383))
 (.node 1 (.leaf 79388078388079388079387080387080386081388080388080389079389079388078388079388080388081388080390079405079404078404078403079404082403080404081404081416079417078415078415080415081415081416082417081422080422078420079420080420080419081421082421080433079433080433080432081433081431081434082435081449079449080449079447081448081447082449081449081460080460080459080459081459081459082460082460081461080461080460080459081460082460082460082461081463080462080461080460081460082460082461082462081464079464080464080463081463082463000000081464081466080465079464080464081464000000081464081465080466079466080465079464081464081464081465081466080480079480080480079480080480081480082480081482081484080485080484079484080484082483082484082484081485080485080485080484081484082484082484081485080492079492079491079490080490081490080492081492000000078509078509078508079507080508081508080509080510079510078509078509080508081508080509080511079516000000000000078514080515080514080515080517079518078518000000000000079516080517080517080517080530079532079531079530080528081528080529081530080533079533078532079533080531081531081532081533079543000000079542079541080541081541082542082542080547079547079546079545079545000000081546081547080578079578079577079576080578080578081579082580080602079602079601079600081600081600081601081602081607080608080607079606080606080606082606082607080626080626079625079624080624080624082626081626079633079634079633079630080632080632080633081632082120081120081119081119081119081118083119083120081122081121081120081119082120083119083120082120)
 (.leaf 82123081124081122081121081122082120083122083123082137080137080136080135081135082135083135083137081146080146080145080144081144083144083145083145081154080154081152080152081152082150083152082154081159080159081158081156081157083157082158081158081164080164080163080162081162083161081162082164081166079166080165079166080165081165082165081166081171081171081170079170080170081170082170082171080195079194079193080193081193082193081193081194081215081214081213080213081213083212082214082215081244080246000000000000000000083242081245082246081367080367080366081365081365082365082366082367081372080372080369079369081368082368082369081370081378080378079377080376080376081378081378082378082394080396081394080394082393083393082393083395081397079398079398079396082395083396083397082397082410079408079408081408081408081408081409082410081416079417081416079415081416083415083416082418081430080432080429081428082428083430083430082430000000081453081452080452081452083452082453000000081458081458080457081456081456083455083456083457081471079472079471081470081469082469082470083471082480081480080480081479081479082479082480082481080499080498079498079497081498082498083498083499081506080506079506080504081504082504083506081506081522079523079522079521080521081521082523082524081532079533080531080530081530083530082533083532082540080540080537079536081538081538081538082540000000079545079545079545081545082545081545081546081554081555080553080552000000082554000000082556081574079574080573080572081572082572081574082574081584081584081583079581081582082582082583081583)))
 (.node 2 (.node 1 (.leaf 81588079588081586079586081586082586082587082588080591080591079591080591081591083590082592081593081595081595080592080591080591081593082594081595081611080611080610081610082609083609082610082611082620081620080619081619082620082620082621083621080624080624079624079623081624082624083623083626081638079637079636079635081634082634081636082638000000000000081640080637081639082639082640000000000000081647081646081646081646000000000000000000083150082150080148082149082149083149083150083151082175081175082174082173082173082174083174083175082187082187082187082186083186084186084187084187081195080196080195080193081193082194082194082195081196080196080196080195081194082194082195082196081197080197080196080196081195082195082196082196082200081200080201082199081198084200082200082201081205080204080202080201082201084202082203083203082207080208080207081205082205082205083206082208000000000000000000000000082231000000000000000000081249080248080248081245082247084246083246082249082252000000000000000000082250084249082251083252000000000000000000000000082252083252000000000000082368081368081367081366082366083366083367083368082372080373080372081372081370082371082372083372082386081384082385081384081384082384083385083386083393082393082393082392082392083392083393083394082397081397081396082395083396084396084397084397082421080423082421081421083421083421084422083421082441082441082441081441083440083441084441083441083446082444082444081444082442083442084444084445082481082480081480081479082479083479084479083481083484082484082483082483083483084482083484083485)
 (.leaf 82491080492081490081489081490083489082491083491083495081497082496082494082495084495084495083497082519080519080518080517081519084518082519083519082526082525081523081522082524083524083525083526081527081528080526082525082526083526082527082527082528081528080527081528081527082527083527083528082550000000082550082549082548082548083549083550082557081555081554080553000000082555083554082556081564081565081564081563082563082563082564083565082572081572080572080571082572084570082572082573082582081582081581082580083579083580082581083582000000080588081588081587082587083587083588083589081614081615081612081611082611084611083612082613082615081617081616081615081614082613082615083615000000000000081640081639082639084638000000000000083115083115082114000000000000000000000000084115083131081133083131082129083131085131085131084131083137083137083135082135083135084135084136084137083161081162083161083161084160084161084162084163083169081170081169082167083167084167084168083169082174082173082172082171082172083172083173084173083177083177082176082175083175083176085178085179084182082180083180082178083180085180084181084182084212083212083211083211082210084209084212084213083367082367082366082365083365083366083366084367082381082382082381082378083380084378083380083381083383082383082382082381082380083380083381083383084402083402082402083400083401085400085400084401084402083403083402082402084402085400084401083403083407081409081408081407083405084405084406083407083413082413082412082411083411084411085412085413084426082428083426082426083424085425085426084428))
 (.node 1 (.leaf 84463083463083462083461084461085461085462085463083470082470082469082468083468084468084469085471083474083474083474081472084472084472084473083475083488082488082487000000083486083486084487000000082502082502082501082500083500085501083502084502083505083506082504082503083503085503085506084507084517081516083516083515083516085515084517085518084533083532082533083530084531084530084531084532083534083535083534083532084533084532084533084534083550082550082549082548082548084548084549084550082560082561081560082559083559083559083560083560083582082582082581083579083580085580085581085581083596082598081595081595082595083595084595084596082599081599082599082598083596084596083597083598083600082600082599081599082599083598084599083601084607083608082607083606084605085606084607085607083618082620083619081617084617084618085618084620084624083623082624081623084622084623084624084625083633083633081632081632082632084631084632084633084115083115000000000000000000000000000000085115084138083138083137083136084136085136085137084137084163083161000000084160084161085161085162086162084189084189084189084187085188085189086190085189085201082200084200082198084199086199086199085201083226000000083226084224084225086224086225084227000000000000000000000000084228085228086228000000000000083246084246082246000000000000000000000000084356083356084356082355000000000000085355085356084360083360084359083360085358085358085359085360085425083424084424083422085423086423086423086425084432084432082431082431084430086430085431086433084439082439084437084436084437000000000000000000)
 (.leaf 84446083446084445084445084444085444085445085446085457084457084456084456085456086456086457086458085458084458084457084456085457086457086458086458085459084459084458084457085457086458086458086459085460084460084459084458085458086458086459086460084468083468083467084467085466085466085467086468084481083481084479083479085478086477085478085481083484083484084482084482084482086481085483086483084487083487083486000000083486086485084487084487084490082491083489083488000000084488084489085490085508083510084508084508084508086508086509086509085512084511084511084511084511086510086511086511083521084520083519082519085519086518086520086521083527083527082527082527083526084526084527085527084535084536083534084533084533000000084534085535084544084544083543083542084542086542086542085544084546083546082546083546084546084544085545084547084552084553083551083550084550084551085551084552084565083565082564082563084563085563084563084565084574084575084574082573084572086574086575086575084576084576083577084575084574086575085577086578084607084607084605084605084605085605085606086607084611084611084610083609084609085609085610086612085121083121085121084119085119086121087121087121085127083127085126084125084125087126087127086127084144084145084144084143085143086143086144085144084149083148083147084147085147087146087148086149085158085157084157084156085156086156086157086158086164085163084163084162085162086160087163087163085173083172084170083169085171087170087171087171085190085190084189085189086190086190087191086190084202084202084201084200086201087202085202086202))))
 (.node 4 (.node 2 (.node 1 (.leaf 85205085205084204084203086204087204087205086207086209084209085209085208086208087208087208087210085223085223085221000000085219085221085221086223086370085370085370083368085370087369086369087370085372085373084371085370086370087370085373086374085376083375084375085373085372086374085374085374084381083380084378084377084377086379085379085381084384083383083383083381085382086382087382087382085388083388083385083385085386086386086387086388086391083390083389084389085389086389086390087391084395084395084394083393085393087393086394086395085403083404083403084401086402086401086402086403085407083407084406084405084406086407085407087407086413085414085413085412086412087411086413087414086422085423084422085421086421086421000000000000085447084447084446084445085445085445085447086447086453084453085452085451086451087451087452087453086458085457085457085456086456087456087457086458000000085461085460085459086459000000000000000000000000085465085464085463000000000000000000000000086495085495085494084494085492086492087494087494085500085501084499084498085498086498086499086500086512085512085512085511086511086510086511086512085538085539084537085537085536086536087538087538084544084546083544084544085544085543086545086546085545083546084546083544084544086545086546000000085548084548083547084546084547085546085548086548085555085555085555084553085553086553086554087555085568083568083568083568084567087567087568085569085581085581085580085578085579086579085580086581084591084591084590083588085589086589086590086591085598083598083597084596085596085596085598086598)
 (.leaf 86603084604085602083601085602086602087603086604085609084609084608085607085607086607086608086609085612085612084611084610085610086612087612086612000000000000084636085637085637000000000000000000086112085114086111000000000000000000000000087112086121085119086120086119086119087119087120087121086127085127085126084125087126087125087126087127086133085135086132085131086131086132086133086134086157085157085156085155086155087155087156087157086159085161085158086158087158088159087158087159086176085174086174086173086172088173088174088174087197086198086196085196087195087194087195087196087214086214085214085213086213088213087214087215086230000000086228085228086228088227088227087228085362085362085361085360085360086361086361086362085365085365084365085363085364087365086365086366086389085389085388084386086387088386087388087389086397086396084395084395086395088394087396086396086403085403086402086402086401087401087402086403086408085408085407085406085407088406087407087408087414086413086413086412087411088411087413087414000000086430085429085428087429000000000000000000086439085439085438000000086437087437086438087439087453086453086452086451087451087451088452088453086455086455085454086453087453088453088454088455086458086458086457086456087456088456000000000000087472086471085470085469086469087469087470087471086474085474086474085472087472087472088474088475087482085483086481085481087480088480088481088481086485086485086485086483086483087483088485088486086491085491085490084489086489086489088492088492086499085499085498085497087498087497087498088500))
 (.node 1 (.leaf 86503086504086503085501087501087501087502087503087508086509086508086507087507088507088507088507085546084547085545084544086546088544086546087548086558086558086558085556086558087558088559088559085565084565084565084563086564088562087565087566087583086583084582084582086582088580088582087584086589085589085588084586086587086586086587087589086604086603085603085602086602087602087603088604086608085608085607086607087607088607087607087608086615086615086614086613086613088614088615088616086626084625084624085624085624087624086624086625086633086634084632084631086631088631086633087635087129085130086128086127087127087128087129087130086143086143087141085140087141088141088142088143087158086158086157086156087156088156088157088158087159086159086158087158088159088159089159088159087167087168085166085166086166087166088166089168087175085177086176086175088174089174088174089176087199087199087199087198088197088197088198088199087357085357087357000000000000000000000000088357087373085374086374085373087371089371088372088375088383087382087382086382088381089381089383089384088391087391086390086389087389087389088390089391087408086408087407085407088406088406089408088408088416087416087415086415088414088415089415089416086438085438086437000000087436088436087437087438087439086439085438086437087437087437087438088439086443086442085442086440087440088442087442087443087445085445085444086443086444088443088446088447088452087452087451086450087450088450088451089452087502086502087501086500088500088500088501087502087509086509087508087508088507088507088508088509)
 (.leaf 86522086521000000086521086521088519087521088521087526087526087526087525087524088524087526088528088531087532086531087530087530088530088531000000088533086534087532087532088531000000088531088532087534085534086535086534088533088532088533088534088543085543087542087540087540088542088543000000000000087550086548085548087549089548087549087550000000087567085565085565087566089565088567089567000000087584087583000000088582089582089582088585086592086592086591086590087590087589087590087592088604086604087603086602087602089602088603088604087608086608086607087607088607088608089609089609087620085622085621086620086619087619088619087620087125086125086123087122088122089124088124088124088136087136086134086133088134088133088135088135088154088154086152087152088152088152089153089154088157087157087156087155088155089155089156089157089184088185088183087183088183090182089184089185088199087199087198088197088197088197089198089199088206088206088205087204088204089204089205089206089222086223088222087222088222089222090222089222088359088360087358087357088357000000090359090359088361086361086361088360088359090359089360090361087366086367086366086365087366089364088366089368089369088369086367086367087366089368088368090369000000088386087386088384088385000000000000000000000000087388088386087386000000000000000000000000088402087402087401087400089400090401089401089402089413087413088411087409088409090410090412090412000000000000088419088419089418089419000000000000088436087436000000000000000000089434089435088436089453088453088452087451088451089451089452090453)))
 (.node 2 (.node 1 (.leaf 88474088475088474087472089472089472089473088475089480088479088478088477089478089478089479089480089480088480088479088478089479089479089480000000088488086489088487088487088486089486088487089488088495087495088494088494089494089493089494089495087516087516086516086515087514088514089515088516088517087517087516086516087515089515088516089517088519086521087518087517088517089517088518088519088538087538087537086536088536089536090537090539088558087558088557088556088556089556000000088558089562087561088561088560088559089559000000000000000000088569088568000000089567089568090568090569088573087573088571000000088571089571089572000000089575087576088574000000088574089574000000000000088579088578088577088577088577089577089578000000089580088580088579088578088579000000089580000000088598088599088598086596088596088596088597088600088603087603087602087601088601089601089602090603088630088630087629088628088628089628089631088630088135088136088135088134088133089132089134090134088140088140088139087137088137090136090137089138089144087144088143088142089142089142090143089143088147087148087147087145088144090146089146089148089156088156088155088154089154091154090155090156090169088170089168088166089168090168090169091170089177089177089177089176090176091175090176090177090180088180089180088178090180090180091180091182089200088200088199088198089198089198090199090200089207089207088206088205089205091204091205089207090216089216088215087214089216089215091216091217089222088222089220088220089220090220091220091221000000000000000000000000089236000000000000000000)
 (.leaf 89363087363088362088361090361090361091362090363089371089371088370088369090369090369089371090371089377089377089376088375089375090375089375089377089393089392088392089391089391000000090392089393089416089415088415088414089414090414090415090416088447088447088446088443089445090445089445090447000000000000000000000000000000089463089464090464089485088485088484088483089483090483090484090485089512087512087511087510088510089510090511090512088516087516087515087514088514089516089516089516090523087523088521087521088520089522000000090524089530088530089528088528090527090526090527090528089535088535088534088533089533090533090534090535089545088545088544088543088543090543000000090545089548087549089548089546089546091547091547090548089562089563089562089561000000091562091562091563089574088574088573000000089572090572000000090574089580089580088579000000089578000000090579000000089582089582089582089581089580090580000000090582089585088585000000088585088585090583090584000000089593089593087592087590089591090591090592089593088596088596089595089593000000089593090593089594088617088618088617088616089616090614089615090618090120088121088119088118089119091118091119092121089132088133089131089130090132090132090132092133090136088137088137088135090134092135091135092136089143089144088142089142089142090142090143091144090194090194089193088191090192092191091193091194090200089200089199089198089198090199090199090201090217090218090216088215091216091215091218091219000000000000000000090226000000000000000000000000090364089364089363090362091362091362091363091364))
 (.node 1 (.leaf 89377089378089377089376089375090376000000000000089393089393089392089391000000000000091390090391090398090397089397089396089396090396090396091396090415089415089414090412090413091413091414091415089442089441089440089439089439090439090441090442090473089473089472089471089472090471092474092474089480089480089479089478090478091478090479090479090487088487089486089485090485091485091486091487090508089508088507089508089508091506091507090509089530088531089530090528090527091529090529090530090540090541090540090539000000091538090540090540090553090553090552090552000000092551092552092554091562000000000000089559090561092560092561091563090574089574000000089572090572091572000000091574090583088585089582089581000000091583000000092584089593089593089592089591090591090591091592090592090593089595000000089593089593090592091592090594090614089616088613089612089613091612090614090615089619088619089619088617090618091618090619091618090623089623089622088619090621090620092621092623090624089626089625088624090624091624090624091626000000000000000000000000000000000000090644091644091114090114090113089114090113092112091113092114091118089119090117089117090117091117093118093118091127089128091127089126091125091126092126092127090152090152089151089149091150092150093151093152091160090158091159090158091158092158092159092160090168090168091166091166091166093165093166093167090184090184091182091182091182093180093182091183091187090187090186089187090186091186092186092187091196090196091195091195092195093195092195092196091205091204091203090203090203092203092204092205)
 (.leaf 90213090213089213090213090213092213091213092215091218091217091216089215092215093215093216093216091363090363091362090361091361091362091362092363092409091408091408091407092406092407092408092409091413090413090412091411092411092411092412091412090443090445090442089442090442091443091443091445090448090448090447089445091446092446092447092448091452090452090451090450091450092450092451093452090468089467090467090464091466092466092467093468090470090470089469089469090470091469091470091470090483090483089482089481090481091482091482091483090504090504090503090502090502092502091503091504090533089532089532089530090531091532091533091533090533090533089532089532090531091533091533091534090535090534090533089532090533091533091534091535090536090535090534090533090533091534091535093536091538000000090537000000090536091537091538091539092549091547091547090545091547092545092546092549091555091555090554090553092554092555000000092555091574090574000000090572091572091571091572092574092577000000090576000000091575093575092576000000091587091587091587000000092586000000091587093589091592089593089593090592091592091592091592092592091602091602091600090600092600092600091601092602090611090610089609089609091610092608091610091611090612090611090610089609090611091610091611091612091624090624090623089621092621091622091622093623091627090627089627089626090627091626091627092627092126090125091125092123092124092123093125092125093135092135092134092133092134094132094134094134091147090147091147091144091144093146092146092147093152090152090151091150092150093150093151093152)))))
 (.node 8 (.node 4 (.node 2 (.node 1 (.leaf 92157091157090156091155091155092155092155092156093177092177092177091176092176094176093177094177092208090209090209091208092206092206093207093208000000000000092221092220000000000000000000000000092358090358090357000000000000092357092357093358093366092365091364091363092363093365093366000000092371092371091372091369092369000000000000000000092381090382090381092380000000000000093380094382091398090398091396090396091396092395092397093397091402090402091402090400092401092400092401093403092449091449090448091447092447092447092448092448093468090469090468090466092467094465093468000000093475091476092474092474092474092474093475000000091478090479091478091477092477093477092477092478091480090480090479090479091478092478092479092480091481090481090480090479091479092479092480092481091483090483090482090481091482092482092482092483091486091486091485091484091484092484092485092486091491091490091489091488091488092488092490092491092514090513091513090511092512092512092512092513092526090527091525090525092524093524093525093526092545091547090545090545092545094544094545094546092551092551092550092550000000093551092550093551092555091555000000092554092555094554092555092555092561091563092561092560092559094559093562000000092565090567092565092564092565093565000000000000092583091583091580000000092581092580093582093583092586092585092584000000092584000000093583094585091587000000092586092585092586094585000000000000093598091596092596090595092596093596093597093598091601091601092600092599092599093599093600093601092605091605091604091603092603093603092604092605)
 (.leaf 91610090611091610092608093607094607092609092610091618091618090617090615092614093616092616093616092643090644000000000000000000000000093642092643093113091113092112092111093111094111093113095113092123092124092123093122093122095121093122000000093128092128092127092126092126093127093127094128093138092138093138092136092136094136093137094140092143091144092143093141093142094140094143093143094171091171092171093170094169094168094171095171094189093188092187092186093186094186093187094188092192091193093191092191094189094189094190093192092206092206091207092206092205094206093206093207093207092207092206091207092206093206093207095208093362091362091362091361093362095362093362093363000000093366093366092364093366094366000000000000092395091396093395093395000000000000000000000000093403091405092402091402093403093401094404093403092408092409092408092407092407093407094406093409000000092417091415091414093415094415000000000000093451092451092450092449092448094449093449094451092452092453093452092451093451094451093451094453093463092463093463000000000000000000000000000000092482091482091481091480092480093480093481093482092482091482091482091481092481093481093482093482092490091489091488091487092488093488093489093490092493091492091491091491092491093492093492093493092502092502092501092500092501094502093502093503092507092507091506092505093507093506093507093508093527092527092526092525093525094527094528095529093551092551092550000000093551095550093551093551093583000000092584092583093583000000093583094585000000091587000000092586094585000000093586093587))
 (.node 1 (.leaf 93589091587000000000000093586093587093588093589093589093589093589000000093588000000000000093597092597092596093593093595093594093596093597093619092621093619092619093619094619094620095621093113092112093111000000000000000000094111094112094168094169094167094167095167096167096167096168095176094176094174094174095173095174096175096176095183094182094182094181095181096180095181096182094189094189094189093187093187094187095188095189095197094196093195094195095194095194095197095198093204092204092203092202094201096201094203095203094212093212094212093212094212094211096212096213094218093218094216094214094214095214094216095218095356000000000000000000094354094354094354095356000000000000000000093366094366095366000000000000095385094384094384094382095383000000096384096384094455092454093454092452094453094453094453094453095471094471093468000000093468094468094469095471093494092493092493092492093492094493094493094495095498094497093496093495093495094496094496095497094498093498094497093496093496094496095497095498094503093503092502092502093502094502094503094504093523093523094521092520094521094520096522096523094523092524093524093523093523096523096523096524094529092531093528093527095529096528095530095531094538094537094537093536094536095536095537096537094539094540094539093539000000094538094539094539094542094543094542094541094542094541094542094543094546094546094546094545094544095546000000095546094556092555094554094553094554094553094554095556095560094559094559094559095558000000095560000000095570093569000000094568094569096568095570000000)
 (.leaf 93586000000094585093583094585094585094585094586000000093589000000000000093588095589094589094590094591093593093590093589000000094590095592095593094603093603093602093601094601094600095602096602095606093606092605092604094604095604096605096605093613093614092611092611094612095612094612095614094615092616093616092614093613094614095614094616000000094646094645093644094646000000000000000000095116094116095116095116096115096114000000000000094131094130094129094128094128096130095130097131096140095139094140093137095137096139097140097140094146094147094146093143095145096143096146095146094155094155093154093152095153096153096154097155095160094160094159094158095158096158096159096160096165094165094164094163095163097163096164097165096175095175095173095171096173097173096174097175095179095179094178094177095177096177097177096179095188094188093187094186095186095187096187096188096207093207093206094206095206095205096207097208095208095209095208093207096207097208097208097210095347095345093346095344095343097343097345097346095348095348095348094346095348097347096347096348000000000000000000094366095366000000000000000000096403093401095401094401095399095400096402096403095411093411095409093409095409095408095409096411095415094415095413095413095411096413097412097414095445095445095444095443095443096443096446096447095474095473095473095472095472095472095472095473095476093477093477093475096474096474096475096476094496093495093494093494094495095495095495095496095510093509093508093507095508096506096507096508094511094511094510093509095511096511097511097511)))
 (.node 2 (.node 1 (.leaf 95515095515095515095514095513097514096514096517094538000000094538094537095537096535096538000000095549095550095548094547095547096547096548096549095563095564095562095562000000000000096564097564095565000000094566095564095563097564097565097566095573095573095573095572000000095572095572095574000000094576093575093575095576095575097576097577094582000000094582094581095581095581095581095582095593094591000000000000094590096589095591096591094599094599094598093597095597095597096598095598094619094620094619094618095618095617095618000000096126095126095125094125097125097124098126096127096139095137095136096136096135097135096137096139096141096143096140096140097140098140097140096142095147095146094146094146096146097144096146097146095150095150095149095146095147097146096148098150096160095160096159095158096158097158098159098160097163095163095162096161097161097161097162097163096176096176096175095174096174097174098175097176097183096182095181096180096180098180097181097182096187094187095186094186095186097185097186098187096201096201094201094200097200098200097200097201096353094354094354095351096351096351096352098353097360096361096360096359096360097360097361098361096361096361096361096360097360097361098361000000097404095403096403096403096403097403097404097405097408095408096406096406096404098405098407098407097453094453094453094452096452097452098453098453000000000000000000095456096456096456097457097458095468094468096467096466096467000000000000000000096482094483094482094481095480096480096481097482096487096488096487095485095485098486096487098488)
 (.leaf 96500096500095499095498097498097498098499098501097520095518096518095518096518097518097519097520096525096524096523096523096523097523097524097525096529096528096527096526096527097527097528097529096549095549095548095547096547097547097548097549096556095556094554094553096554098553097555097556095584094585094583094582095582096583096583098584096607095607095606096605097605097605097606097607096111096111000000000000000000000000000000097111097117096117000000000000098115098115097116000000096123097122000000096122000000000000097122099123097124097125096123097122096123099123098123098124097134097133097132097131097132098132000000098132097154096154096153096152097152099151098153098154097185095186095185095185097183097184098184099186097192097191097189096188097190098188097189097191096195096195096194096193096192099193097193098193097206095205097205095202097204099204097205098206096211096212097210097210098209099210098211000000000000097215097213097212098212000000000000000000096348096348096347097347097346097346097348098348097387095389097387097387000000000000000000000000000000000000000000000000097392097391098393099393097399095400096398000000000000000000098398097399098410096411095409095408097409000000000000000000097413097414097412096413098412000000000000000000097424000000000000000000000000097424097424097424097430000000000000000000097428098428098429097429097446096448096447096446097446097445098447099447098451097451097450096449097449098449097449098451098453097453097453096452097452098452098453098454000000000000000000000000097458099458098459000000))
 (.node 1 (.leaf 97474095473095472095472097472098472098473000000097476096476096475096474096474099474099476097476097516096514097514096512097512098514098515098516097519096519096518096517097517098517097518099518097524096524096523097521097522098522098523098524097548096548096547095546097546099546099548099549096557096558096557096556097556099556099556097557000000097565097564096564097564098564098565098566098568097569097568097567098568098568000000098568097570097571097570097569098568098568098571000000097588000000097588097587097588098588098589098590098602096602096601097600097600098600099600000000097607096607096606097605097605099607099608099608098611096611097611097610098611099609098610098611098617095617097616095614097614098616097616000000097111096111000000000000000000000000000000098111098113098114097112096111097111098111098112099115098127098128096127098126098125098126098127098128097136096137097135097134097135098135098136099138099159098159097158097157098157099157099158099159099168097168097167097166098166100166100166099168099170098170098169098168099169099169100169100170098188097190098187097186098186100187100187098188097399097399097398000000000000000000000000098399098437000000000000000000000000099435099436099437097443096443000000000000098440098442098442099444099474096474097474000000098473098473098473100473098481096481096480096480097480099479098481098482098489098489098489098488000000099487100489099489098495096495098494098493098493099491100492100493097496097496096496096496000000098495098496098496098498097498098497097496097496098496098497099498)
 (.leaf 98506096507098505098504098504098505098506099506098514097512097511097510098512100512100512099514098529097529097528097527098527099527099528099529099544098543098542098542098541099541099542099543098552098553098552098551099550099550099551099552098567000000000000000000098565099565000000099567098571097571097570000000098571098571098571098571098583098584096583096583099582100582100582099583099590097589097588000000098589099589099590099591099593098594098593098591098592100592100593100593098132098132000000099129000000000000099130099130099132098132000000098132098132099130099132099132100140098141099139097137099139101139100140101139099142098142099141098142099140099140099142099143099144099144098143098142099142099143101143100144099157098157098156097155099155099155100156099157100166099166098166098165099165101165100166101166100172099171099170099169100169101170101170100172099176098176099174098174100173101173101174100176100198099198099197098197100196101196101197101197100207099206098206097205099205101204101205100207100209098211099210098209099209101207000000101211099342098342000000000000000000000000100341101343100352099352099352097351100350100350100351101353099354099354098353099352100352101353101354101355000000000000097360097360099360000000000000000000099376000000000000000000000000000000000000100376000000000000099393098393099393100393000000000000000000000000099404000000099404100404100405000000000000000000000000000000000000100415099415099416099430098432098431097429099430100428100429099430099436000000000000097435099434100434100435101436))))
 (.node 4 (.node 2 (.node 1 (.leaf 99447098447097445098443099445100445101445100445099456099455099455098454099454100454099455100456000000000000000000098459099459000000000000000000099478097479097477097476099476100476099477100478099486098486000000098484099484099484100485101487099502098502098501099500099500099501099502099503099520099520099518097518099518100518100519099520099526098526097525098524099524100524100525099526000000099556099556099554099555099555099556100557099564098564000000098562099562099562099563099564000000098566098565098564099564099564099565100566000000000000099600098600099600000000000000000000099639000000000000000000000000000000000000100639100117099117100117099115101116102116101116102117000000000000100121100121100121101121100121100122000000098126098125100124000000100124100125100127000000098128098127098126000000100127100127100128100146100146099145099144100144100145100145102147099150099151099150099147100149101149100149100150099157099157099156099155099155100155101156100157100159099159099158099157099157100157102158102159101163100163099162099161100161101161100162101163101173100173100172100172100172101172101173101174101178100177100177099176100176101176100176101178100180099180099179100179101179102179101179102181101194100193100193100191101191102192101194102193099200098200098199099198100200100200100200100202101204099205099204099201100203100203101204101205101343100343099342000000100341102341101342102343000000099360099359100357100358101358101359000000000000000000000000099405100405100404000000000000099416000000000000000000099415101414100416101416)
 (.leaf 100418099420099417000000099416101416100417100419100423099421099420098420100421100420101422101423100429098431099430098428099428101427100429101429100434099434098433099432101432102432102435101436100440098442099441098438100438102439102439101440100475000000099474100473100473101473101474101475100483098484098482098482100481101481101482100483100504098505099503099502099503101502101503101504101511100511100509098507100509102509101510101511100514099514100512100512100512101512101513101514099555099555099552099551099552101551100553100553100568000000099567000000100566100566101567101568100571098571098571098571100571100571100571100572100587100586098585099583101585101585100585102585101596099597100595100594100595102595000000000000000000100608100607099607000000000000000000000000101611100611100611100611000000000000102611101611100639099639000000000000000000000000000000101639102186101186101185101184102185103184102185102186101353101354101353100351102351102351102352101353101358100358101357101355101356101356103356103357101413100415100412000000000000000000000000102413102446100445101445100445101443102445000000102445101450101450101448100448102446102446102449102450101490100490101490100488101488102488102489102490101492100492099491100490101490102490102491102492101497099498099497099496101495103495102496103497100538100539100538101536100537101536101537102537101551099552099551099550100549102549102550101551100557100557099556099555100553101554101554101555101578101580101578099576101578000000103579103579101611101611100610000000000000000000102610102611))
 (.node 1 (.leaf 102117102117101116102116103116000000103116103117000000000000100122100121102122102121000000000000000000102133000000101132000000104131102132102133101136101135101134101133101134102134102135103137103145100145101143101142101142103142102144102144102156101156100155101154102154103154103155104156102159102159102158100157102157103157103158103159103183102181102181101179103180104180104181104181102187102187102186102185102185102185104186103187102342101342102341000000000000000000000000103342102402100404102402000000000000000000000000000000102416101416100416101414102414103414102416102416101423100423101423101422102422000000103421000000102423100423100423101423000000103421000000102424102445102446101444101443102445103443103444102445102452102451102451101450102450103450104450104450102457101457100455100455102455103453102455102455102468101468101467000000000000000000000000103468101483101482101481101480102480102480102481102482101511101512101511101510102510000000102509102511102539100540100539100538102537103539103540103541102546100545100544100543103543000000102544102544101551101551101550100549102549103549103550102551102561101563101560101559101560102560102561102562101565100566102564102564102564103564103565102566101568000000000000101568101568102568102568102568102569100571000000000000101568102568102568103569103586102585100585101585103583104584104585103587102591101591102589101589102589103589103590103591102639101639000000000000000000000000103638102640000000000000102642100640103642000000000000000000000000103113000000000000000000000000000000000000)
 (.leaf 104130103130103129103128000000000000000000000000104139103140102139103138103138105138105138105138103142101142101142103140103140105141103142104142103150103149103148103148104148105148105148104150103160102160102159102158103158104158104159104160104169102169101168101166103167105166105168105168103172103172103170103170103170105169103171103171103178102178102177102176102176103176104177103177103179102179102178102177102176104177103177103178103191102191101191102189102189103190104190104191000000103207000000103204103205105205105206000000103342102342102341000000000000000000000000103343000000103358103357103356103357104357103358000000103418103418102417102416102416104416104417000000103427101427102426000000102426000000000000104427104432103431102430102429000000105430105430104431103443102445102442102441104442104443105444104443102455101455102455102454103452105453103454104454103472101473101472101472103470104470104471104472102481101481102480102479102479103479103480103481104496103495103495101493103495105493105494105496000000102510102509101506103506104506104509103508102518101517101516101515102516103516103517103518102520101519101518101517102518103518103519103520102521101520101519101518102519103519103520103521102521101521101520101519102520103520103521103522102530101530101529101528102528103527103528103529102531101531101530101529102529103528103529103530103539102537101537101536102536104537103537000000103549102549102548102547103547104547103548000000102561101560101560102560103560104560104561104562103567101567101565000000103565103565103565103565)))
 (.node 2 (.node 1 (.leaf 103578000000102577101574103576104576000000103578104580103579103579000000103578103578103578104580104585102586103583102582103584105583105584105584000000000000000000102595103595103595103596104597000000103642103642102639102640103641000000000000104118104118103117103116103116105118104117105118104125104126104125000000000000106124000000106126105130104131104130104129000000106129106130106131105148103149104148103145104147105145105148106148104157103157104156103155104155105155105156105157105165103166104165103164104164106163106165106166104191103191102191102189103190105189106191104192104203102203104201104200104201105201106202105203104353103353103352103351103352105351104353104354000000000000103358103357104357000000000000000000104402000000000000000000000000000000000000000000000000102426102425102424104425104425104425104427104427103427102427102426000000104427104427105427104433104433103434104432104431105431105432105433104442104441104440103440104440106440106440106441104444103444103443104443105444106443106445105444104447104448103446102445104445105445106448106448104488103488102488103486103487104487104488104489105496104496104496104495105494105494105495105496104505103505103504103503104503104503106504105505104512102511102509000000103508105510104510105512103516102516102514102513103514104514104515104516103518102518102517102516103516104516104517104518103525102526102525102524103523104523104524104525103531102532102531102530103529104528104529104530104551102551103550103549000000105549106551106552105558104559104557104556104557106556105558105559)
 (.leaf 104562102561102560103560104560106560106560106562103578103578000000103576104576106576104577106577000000104613104612102611000000000000000000000000104615104616104615104613104613105613104614105615103641102640103638000000000000105639104639104640106131105130000000000000106129000000107131107131105132103133103132105130106131107131107132105132104154103153103153103152105152107151106153106154105188104188103187105186105186105186107188107188105203104203104202104201105201106201106202106203105206105206105205104204105204107204106205107206105350104350104349104348104348106348106351000000105456104454103454105453105454106452106455105455105470104470104469105468105468106468105470106472105475103476104474104473104474106473106474106475104482103482103481103480104480105481105481105482104486103486103485103483104483105484105484105485104488103487103487103486104486105485105487105488105505104505104504104503104503106503107504106505105523103523103522103521104520105521105521105522104523103523103523103522104521105521105522105523104526103526103525103524104524105524105525105526104527103527103526103525104525105525105526105527105538103537104537104534105536105535105536105536105540103541104539103540104538105539105540106540000000103545103544103543105544106544106545105546106556104557105555104555105553106553106554000000104591104591104590104589105589106589105589106591104595103595104594103593104592105593106594105595000000000000000000104597104596105597105598105598105615104615104614104613105613107613105615107616105639000000000000000000000000105637107638107638))
 (.node 1 (.leaf 107120106120106119105118105118107120000000107120000000106124106123105121106121107121108123000000106134106135105133105132105132108133107133107134106142105140105139105138106140108138106140107140106144106144106144105142106142107142106144106144106156105156105155104154106154107154108155107156106158105158105157105156106156107156106156106158106165106165106163106163107163107163108164107165107169106170106168106167106168108168108169108169107174104175106173104172106173106172106173107175107179106179106178106178107177108177107177108179106191104192106191105189106189106190108190107191106194104194104194104192106192108192108193106194106200105200104198104198106198107198108199108199106203105203106202105201106201107201108201108202000000000000000000000000000000106369106369107369105373000000000000000000000000106372107373106372000000106422106421105421107420000000000000000000000000105424106422106421000000000000000000000000106442106443106442106441107441108441107441108442106455105455105454105451105451107453106453107455105460000000000000000000105459108459108460106459106467105467000000000000000000106466107466107469106474104474104474106472106472107472107473107474105496105495105494105493106493107493106495106495105498105498105497105496105496106497106498106498105501104502105500106499106499107499106501106502106505105505106504104503106503108503107506107507105531104530104529104528106528106529106530107530105534104534104533105531106533106532108534108534105540105539104538104538105538000000107538106539105546000000105545105544106544107544106544106545)
 (.leaf 105549105549104547105547106547106546106547106548106553105553000000106552106551106552106552107553107564106565105564106563106563107563108564107565106574104572104572104571105571107572106572108574106579105579106577104577106577107577108578108578107587105588106587106585106586106586107587107588105599000000000000000000105598108597106598107600107117105118106116000000000000000000000000107117107127000000107127107127000000107126108126108127107142106142105141106142107140109141107142107143108147107148107147107146107147109146109146109148108152106153107151107151107151108151109151109153108180107180107179107178107177109178109179109179000000000000107206107206108206109206000000000000000000107347000000000000000000000000000000000000106379106379106378000000106377107377107377109379000000000000107427107427000000000000000000000000108439106438107438107438108437108438108439109440107449107450106448107447107447108447108448108449107479107479106478106475107475107476107477108477107481105481107479107479107479108477107479107480106489105490105490105488107489107488107489107490107491105491105491105490106489107490107492107492108508106509106506106505107507109506109507108509108509106509107509106509108508108509109508108509106516106517105515105513107513108515107515107515106523105524105523105522106522108521107523107523107562106560000000106560107560109560108561107561107577106577107575107575107575109575109575108575107613107613000000000000000000000000000000108613108641107641107639107638107639108639000000108641109151108151107151108149108150109150110150109152))))))))
 (.node 64 (.node 32 (.node 16 (.node 8 (.node 4 (.node 2 (.node 1 (.leaf 108163107163108162107161108161110161110161109163108169108169108168107167108167109167109168109169108193108193108192107191108191108191109192108194108201107201108199108199108199110198110200110201109203108202108201107201108201110201109202110202000000000000108206107205108205109205110206000000108376107376106375106372108374110373110374110374000000108435108434108434108434109432108434108435107456107455106455107455108455109455108455108456108460108460108459108457108458109458110459110460108469107469108469107469108469110468110469109471108520106519106518107516108518108517109519000000108520106521106521106519108520000000109519109522108534108535108534108534108534000000000000109534000000106546106545106544108545109545109546109547108550106551106550106550107549110549110551108551107555107555107554107553108555110554110555108556109586106586108584107582108582109584110585110586108594108595108594106593109593110593110593109596108616107616108616106614109615109616109617000000109124109122108121107120108120110120111122110124109140109141109139109138109138109138110139110140110150108151108150109148109149000000110150110151110161108161108160107159109159110159111160110161110177109177108177109176109174111176111176111177109181108181108180109179109179110179111180109182109190108190109189108188110188109189111189109191110200109199108199109198110198111197111198111200109205108205109204109203110202111203111203111204108359000000000000000000000000109357109358109359109367108365107365108365109365109365000000110365109369109370109369109369109369110369110370110371)
 (.leaf 108380108381108380109379109379109379111380110381108434108435108434107432108432110431109433109433110441108441109440108439109439109439110440000000108443000000109442109440110441111442111442111443110447109446109445109445109445110445110446111446109452108454109452107450110451110450109451111454110460108460108459108458109458109457109458110460108486107485108485108484109484110482109484110484109489107490107489107488109487109488109489111489108493107493107492107492109490110490110491109492109496107497107497107496109496109496110497109498109498107499108497107497109496109498110499110500109529109529000000000000109529109529109529109530000000108534108533109531109532110532110533109533109546000000108545108544109544111544111544110546108560108561109560108559109559109558110560109560108567108566107566108566109566110566110567109567110576109575109575109574109574110574111574111576108589109588109587109586109587110587110588110589110597109597109596108594109596111595111596111597000000107598109597109596110596111596111597000000109633109634109633000000109631110631000000000000110119000000108118000000000000000000000000000000109127000000109127000000110126110125112125111128110138108137110136110135110136112135112136112137110141110141109140110139110139110140110141110141111146110146110145110145110145111145111146112146110157108156108155108155110155111155112156112157111198110198110198110197111197111197112198112198110349000000108349109347111347111347110348111349110371109369000000109369110369111369110370111371109379109379109378110376110377111375111376112378))
 (.node 1 (.leaf 111442110441110441000000110440111440110441111442111467110465110465110465110465111465111466111467110473110473110472110472000000110472110472110475111479109478110478110477110476110477110478111480110490109490109489109488109489111488112491112491111505110505110504110503111503111504112504111504110507109507109506110505110505111505112507111507110518108517109515110516110514110515111515111516000000000000000000000000110533111533111534110534110537000000109538000000110537112536110537110538110549109549109548109547110547111547110548111547110556110555110554110554110554111552110555110556111557109556108556110555110556110556110556111558110567108566109566109565110565110564110565111567110572110571110570110569110570112570112570112572000000108629110628000000110628000000000000000000110631109631110631108630000000000000111630000000000000110636110635109633000000000000000000000000111122110124111122110120000000000000000000000000111132110132111132111131112131112130112131113134112157110157110156110155111155112155112156113157112169111169109168111167111168112168112169112170112174111175111173110173112173113172112174113174111179110179111179111178112177113178113179112179111190109191111189109189111188113188113189112190112201111203111201111200112201112201113201000000110348110348111347000000111346112346111348111349111350110350110349110348110348111349111350112350111355109357110354109355110354112355111355000000111361111360109359109358111359111359111359111360111369110369110368110365111367111367111367112369000000110438111436111436111436113434112437111437)
 (.leaf 111455111455111454109453112454112453113455113455111463110463110462110461111459111461112460111462111468111468111467000000111466000000112465111468111474000000110473110472110472113474111474111474111500110500110499109498111498111497113497112500111508110508110507111507112507113507113507111509000000110536000000109533111534113533000000113534111545111544111544110543111543112543112544112545111583109583110582110581111581113581113582113582112589110589110588110587111587112587112588112589112124110125111123111122000000000000000000000000112139110140110139112138112137113137113138114140113157112157112156111155112155113155114156113157111163111163111162111161112161113161113162114163113176111177112175112174113174113175114175114176112185112186112185110183113183114184114185114185112190111190111189111188113188114189114191113192112197111197112195112195112195114195113196114197111348111347111346000000000000112346112347113347112356110358111355111354111355112355112356112357111372111372111371110370112370114370113371112372111440111440110439000000111437112437112438112440112443111443111442110441112441113441112442112442112465111467111466111465112465112464112465114467112481111481111480110478112479113477114480112481112484111484111483110482112482113482114483114485000000111494112494111492112492114493114494114495111514111513110512110512112513113511114513112513112519112520000000111517112517112517112519113519112528000000000000000000112528113528000000112528111545111546111545111544112544112544112544112545112569112569112567111567112567112565113568113569)))
 (.node 2 (.node 1 (.leaf 113571112572112572112570112571114570114571113573112588112588111587111586112586114585113587113588112593112593112592112591112591113591114591113593113594112594112593112592113592114591113593114594113128000000113128113128113128113128113128114128113141113142112140112139114140113139114140114141113149112147113147112145114146000000000000114147114151113151113151112150113150114150114151115151113157113157112156112155113155115155114156114157113172112172112171112170113170115170114171114172114184113183113183113183114183115183114184115183113200112200113199113198114198115197000000000000112377112376112375111375112375113375113376113377000000000000000000000000000000113382113383000000113481112481000000112481112481114481000000114481113487112487113487112485114486114485115487115487113496111497113496000000114495115494115495115498114501112502113500112500113500114500114501114502113504112504112503113503114503114502113503113504113533000000113533112531112531000000000000000000113540112540113540000000000000115539115541115541112547111547111547111545112545115545113546113546114552112552112551113549113550114550115551115552114556113555113555113554113555114555115556114557114570112571113570112569113569115569114570115571113576113575113574112572113574113574115574113576114583113582113582113581114580114581114582115583114589113590112589112588113588114588114589114590000000000000000000000000113601114601000000000000114125113125000000000000000000000000000000114125115144114142113141114141114140114140000000115144114163114163113162113161114161114160114161116163)
 (.leaf 115167114166114166114165114165116165116165115167115177114177114176114175115175116176116176116177115189114189114188114187115187115186115187116189115194114193114192113192115191116191115193116194115195114195114193114192115193115193116194116195115197114198114197113196114196116195116197115198114341000000000000000000000000000000000000114342113352112352113352112350114351115351116351116352115365114365114364114364115364116363116364116365114369114368114367113367114367115367116368115369113375112375112374112373113373114373114374114375113383000000000000113382114382114382114382114383000000000000000000000000000000115388114388000000114431114432114431000000114429115429116431115431114435113435113434000000113434116434114435115435113440113441112440112438113438115439114439115441114445113445112443112442114443115443115444115445114458114459113457114457115457116457115457115458114469112467114467114467114467114467114468114468113471113471112471112471114469115469114471114472115476114475114475000000114475116474116475115475114476114476114475114475115475116475115475116476114481113481112481112481114481115481115482116482114492114493113491114491114490115490116491115492114502114501113501113500114500115500116501116501114511113511113510113509114509116509116511116511114513112513114513113511114511116511114512116514115552114552114551113550114550114549115551116552115563112562114561113561115561116561116562114562115584114585114584114584115583116584116584115584000000000000000000113601114601115601115602000000115137113138113136113135114136116135115137115138))
 (.node 1 (.leaf 113139114138113138115137115138115139117140115157114157114156115155115155000000116156115156116172114172114171115170116169117170117171116172116179115178115177115177116177117177117177117180115179115179115178115177116177117177117180117181115193115193115191114189115189116189117191117193115346115346115346114344114344115345115345117347116352113352113352114351115351117351117351116353116354115353115353113352116352116353116354117354116358115358115357115356115357117355116356117359116362114360115360115358115358117359117361117362116364115364115364115363116363117363117363117364115367114367115365115364116364117364117365116367114373113373113372113372114371115371115372115373115378114378113377113377114377116376116377116378115444114444114443114442115442116442116443116444114463114464115463115462116461116460116461115464114469000000114469114468114468116468115468117469116482114481000000114481115481117480116482117482116488115487115487114485116486116485117486117488116493115493114492114491116491117491116492116493116494115494115493114492115492116492116493116494114524114524000000000000115524115523116525116526116543115541115541115541115539000000117542000000116547113546113546115545115546116546117547117547115553114555115553115553116553117553116554117554116562114562115561115560116560117560117561117561115590114590114589114588115588117587117588115589000000000000000000000000115602000000000000000000116134116135115133114132117133000000117133118134117145116144116144115144116144117144117145000000117166116165116165116163116164117164118165117166)
 (.leaf 117171115171116169115169117168118169117170117171117184116183116182115182117181117182118182118183116343114344114342114342116341116342116343116344117354116354116354116352116353118351118354118354117359115358116358116357116356118358118358118359116370115370115369116368117368117368117369116370116379115379115378115377116377116377117378118380116434114435116434115432116434116434118435117434116443115443115442115441116441116441117442117443116454116454115453116452116452118452118452118454116476116476115475116475117474118475118476117476115499115500115499116497116498116498116499117500116513116514114512116511116511117511117512117513115523115524114521114521116520117520116522117522000000114526114524000000116525116524116526000000000000116534000000000000116533117531000000000000117563116563114562116562117561118562118562118563117567116567116566115566117566117564117567118567117570115571116569116568116569118568117570118570117575115574116574116573116574118573118573117574115597115597114596115593116595116594117596116596117143115142115141117140117141117141119141118141117152116152116149000000116149119150117150118150116160116160116159117158117158119157119158117160117185117186117184117184118184000000119185119185000000000000117197116196117196118196118197000000117381117382116380116379118380118379118380119381117387117387117385116385117385118383118386118387117390116390116389117387117388118388117389117390000000000000000000000000000000117393117394000000118405117405117404117404117404119402119404119405000000000000000000000000000000118415117415117416))))
 (.node 4 (.node 2 (.node 1 (.leaf 116422000000000000000000000000117420117421117422000000000000000000000000116422117422117423000000116440116440117438116438118437118436118437119440117444116444116443116442117442117442117443117444117450117450116449116448116448117448117449118450117451117450117450116449116449117449118450117451117462115464116461116460116460118460117462118462118481117480117479116479118479118477119479118481117482116482117480117479118479119479118481118482117485116485117484117483117483117484117484118485117493116493116492117491117491117491119493118493118503117504117503116501118502119502119502118503118506117506117505117504118504118504118505119506117528116528117528115527117528000000117528117528116535116536000000116534000000117533117534118534116537116538116537116536116535118534117536117536116545117544117543000000000000119542119543119544117577117575117575117574118573117574119575118577118588117588117587116587117587118587118588118589116599115598115597115597116596117596117597117597117603000000000000116601117601118601117602000000117145117145117144117143118141118141119144118143118146117148000000000000117146118145118146118146118163118163117162117161118161118160120162119163119189118189118188118188118186000000000000120189119194117195118193118193119192120192120194119193118342116343116342117340119341119340119341118343119348118346118346118345118346120345120346119348119351118351118350117350118350120349120351120351119362118362118361118360119360120360120362120362117368117369117368118367119367120367119368118368117393000000000000000000117391118390118392118393)
 (.leaf 117394000000000000000000117392118392118393118394119402117404118402118402119402119400119401119402119406118406118405118404119404119403119404119405119407118407118406118405119405119404119405119406119408118408118407118406119406119405119406119407118452118452117451117450118450118450118450118451118459117459117458118458118457000000000000119459118472117474117471116470118470118471118471119472117498116499116498117497118497119497120497119497119501118501117501117500118500118499119501120501118510117510117509118508119508120508120509120510118522117522116522117520117521120521119523120523118531117531000000118530118531118530118530000000117534000000000000117531118531000000118533119533119542000000000000117541118541118541119542120543118585118585118583118582119583119583119584120584119136119137118135118134118135000000120135121136119157119158119157119156120157120157121158120157120174119173119173119172120172000000000000000000120362119361119360119359120359121359121360120360119382119382119381118380119380120380120381119382118389117389118388118387119387120387120388119389119397000000000000117394118394121394119395119397000000000000000000000000119397119397119397120399120409119409119408119407119406121408120409000000120409119409119409119408119407120409000000120409120414118415119413118413119413119412120414000000119417000000117417117416119415119415119416119417118428117427117427117426119427119426119427119427119432117430117430118430119430119429121430120430118436118436118435000000119436119435119437119437118445117445117444117443119443119443119444119444))
 (.node 1 (.leaf 119461117462118460118459119459000000121461121462119468117470118467117466118467121467119468119468119472118472117471118470118471121471119472119472119488118488118487119486118487119487119488121489119495118493119493117491120491119492119493121495120516119515119515119515120514121514121516121516119517119518119517119515120516121516121517121518120528000000119526119525119526120526120527120528120546118544119544119543119542120542120543120546119550117549119548119548119548120548120549120550119571118571119569119569119569120569120570121570119581119580119579117579119579120577121578121580121139120139120138119136121136122136121137121138121140120140120139120138121138121137121138122140119146118146118145118143119144000000120145121145121150000000120148118146121148000000000000121150120165119165119164119163120163121163122164121165000000120170120169119169121168122169000000000000000000119174120174120173000000000000000000000000000000120191120190120189000000000000000000000000000000120194120192120191000000000000000000000000000000000000119197118196120194121194120196000000120356120356120355120354120354122354121355122355119373118373118373118372119372120372120372120373119375118375118374118373119373120373120375120375119376118377118375118374119374120375120375120376120378118378118378118377119376120376120377120378120381119381119380119379119380121379120380120381119389118389118388119387120387121387121388120388120391118390118390118389119389120388120389120390119391118390118390118390119389120389120390120391119444118445118444119443119443120443120444120444)
 (.leaf 120467120465120465120465121465122465000000121465120484119484119483118483120482120482120484120485121497119497120497119497120495122495121496121497121503120503120502120502121502121501121502121503120508120508120507119506121507121506121507121508121511120511120510120509121509121509121510121511120520120521120520119518121520122519122520122522120523119525120523119523121521122522121522121523121535120535119533118533120534121534121535121536120549119549119548120547120547121547121548120549120551119553119550120550121550121549122551121551121557118555120556120555121555122554122556122556121567120567119567120566120566121566121567121568119600119600120599118597120598120597121599120599122140121141121140121139121138123138123140121141121165120165120164120163121163122163123163122165000000120179121177000000000000000000000000000000121355121354120354121352121353123352122354122355121362120362121361120360121360122360122361122362120367119368120367120366121366121366121366121367120369119368119368120367120366121366121367121369120370119370119370119368120369121369121369121370120378120378119377119376120376121377121378122378120381120381120380119380121379121379122382121381120388119389120388120387121387123385121388121388120399120399119399120399120399121398121399121400120402119402119402119401120401121401121402121403121410000000120409121408121408121407121408121409121415119415119415000000120414121414121414122415120422119422121421121421121421121420121422121422121425119426000000000000121425121424000000000000121432120430121430119429000000000000123430122432)))
 (.node 2 (.node 1 (.leaf 120437119437119437119435120436121436121436122438121453119452119451120451120451122451121451121453121462120462121462121461000000000000121461123463120478119477119477121475121476123475122477121478121479120479120478000000120478121478122478121480121496120496120495121495122495123495123495122496121504120504121503121502121502122502122503122504121511121511120510121509121509122509122510122511122562121562120562121561122560123560123561123562122578120577121577121576121575121576122578122579122583120583120582121580121581122581122582122583121592120592120591120590121590121589122591122592122594120594121594121593121592122592122593122594120599119600120599120598120597121598121598121599122143000000121142121141121142124142124142122144121154120154121154121153121152124152122153122153122162122161122160122159122160124160123161123162122163121163122161122160123161123161123162123163122361121361121360122359123359124359123360123361121372120372120372120371121371122371122372122373121394000000121394120391121392123393122393122394121398120399120397120395122397000000122397122398122444120444120443121442122442122442122443123444121449121450121449120447122448124447124448122449122466121468121465000000122466123464123465123466123475121476122474122473122474123472124474124476121480121479121478120478121478122478122479122479123486120485120484120482122484122484123485123486122512122512121511121510122510122510123513123514123518122518122517122516123516124517124517124519123519122519122518122517123518124517124519124519122524120524121523121522122522124522123523124525)
 (.leaf 123535121536121535121534122534123534124534123534122551121551122551121549123550124550124550124551123560122560122559122558123558124559124559124560122580122579122578121576122578122578122579123580000000000000121603120601122602000000000000000000123159123159122158123156123157124157124158125159000000000000000000123167000000000000000000000000123349123349123347121345124345125346124346124347123349123349123349123349123349124347125349124349123354122354123352122352123352124352124353124354123362122362122361122360123360124360124361124362122372121372121371121370123371123371123372000000123376121377123376121375123374124374124375123376000000122397122396121394122394124395123395124397123414121414121414122414122413124412124413124414123421121420123419123419123419124419124420124421123422122422121422121422122421123421123421124422122435121436122433121432122432123433123434124434123446121446122445122444123444123444124445124446123457000000123455122455123455124455124456124457124471123471121469121469123470124470124471125471123490123490123490121489123488123489125489125490124495123495122495123493123494125494124495125495124517123516123515123514124515124515125515125517124520123521123519123518124519125519125519125521124528123528123527122525123527125526125526125527123535121536123535123534124534125534125535124537123548123547123546123546123546125545125545124548124556123555123554123554124553124552125554125555124562123561123560123558124559125559125561124562122567122568122567121565123566123565123567123568122569122570122569122568122567123568123568123568))
 (.node 1 (.leaf 122591122592122591121589123590124590123591123591123594122594122593122592122593124592125594124596123601122601121599121598123599123598123600124601124132124133123131000000000000000000124131126133123149123149124147123147124147125147125148124149124194124194000000000000000000000000000000126195124337122337123336000000123336125335126337125337124344124344123341123340124342125342125343124343125346124345124345124344000000126344126344125345124353123353123352123349124349125349124351124352124361123361123360124359125360125359126361126362124374123374124373122373124372124373125373125374124382124381124380124379124380124379125381124382124400122399122398122397124398125398125399124400124407124407124407124405124405125405124407124408124413122414122413122412123412124412125412125413123421122421123421123420124420124420124420124421124422123422123421122421123421124421125421125422123437123438123437122435124434126435124436124436124449124448124447124447125447125447126448125449124455123455124454122452124453124453125454125455124465123465123464123463000000000000000000125467125471124471123471123470124470126470125471000000125494123494124492123490125490126491126492126493124505123505122505122504123503124504124505124505124507123507122506123505124505124505125506124507124524124525123523124522125524126524125525125526125530124529124529124528125527126529126529126530125543124543124542123542125541126541126541125542125557124558124557124556125555126555126556126557123565123566124564124563125563126563126564125566123572123572123571122571124572126571125573125574)
 (.leaf 123580122580123580122579124579125579125580124580124592122593122592122591123591125590124592124593126143125143125142125141126140000000127142126142126143124143125143125142125141127142126142126143124149123149124148124147125147126145125147126149124150000000123149123149124149126149125149000000125159125159124158124157125157125156125157125159000000000000125165125164125164126164126165000000126198123198125197125196126195000000126196126197125334123335000000000000000000125333125333126334125337124337123337123336125335126335126336126337124343124344124343124342125342126342126343000000125355124355125355125354126354127354127355126357125364125365125364124362126363127363127363126364125366125367125365125365125364126364126365126366125391124391124390000000124390126391127391127392125399124399124398124397125397126397125398125398125413124413124412123412124412126411125413127415125431125432124430000000000000000000000000000000124441123442124441123438125440126440125440126442125457124457124456124455125455126455126456125456126470124470124469124466125468000000000000000000125474124476125474125473000000000000000000126474125480125481125480125478125478125478125480127481125485124485125483124483125483127482126484127484124504123503124502123502124502125502125503125503125516125515124515124514125514126514126515126516126523125522125522125521126521127521127522127523126534125533125532125532126531127531127532127533126538125538125537124537125537127536127537127539125545124543125543125542126541127542127543127544125550124550124549125549126548126548125549127551)))))
 (.node 8 (.node 4 (.node 2 (.node 1 (.leaf 126556125556125555125554125555126553127555127556125580124580124579124578125578126578125579125579125582124584123582124580125582125581125582126584126596125596124596125594125595126595126596127597125596125596125596124596126595126596127597127597126133125133126133124131000000000000000000000000126145125147125144126143126143128143128145126146000000000000000000000000126165128165000000000000000000126195126195000000000000000000000000000000126338125338125337126337126336126337126338128339127343126344124343125343126343128342128342127343126345125345126344126344127343127343127344127345000000126359125359125358126358127358127359000000126372124373124372124372125371127370126372127372127389125390125389125388126388127388127389000000126392125392125391124391127391000000127391127392125398125399125398125397126397127397127398127399125403124404125403125402125401126402126403126403126406124407125405125404126404126404126406126406125410124410124409124408125409126408126409126410125413125412124412125410125410126411126412126413126416125416000000125416127415128416126416126417126418124420125417125416126416126417126417126419126425126425126425125423127423127423127424127425127435124436126435126434126435127433127436128436126445124445125444124441126443128442128444128444126448126448125447125446126446128445127447127448126453124453124452124450126451126450126451127453126490126488124487124487125487127486127487000000127491126491126490126488126490000000128490127490127495126495126494126493127494127494128494128496126499125499125498126498127498128498128498127499)
 (.leaf 127511125510126510125508126510127510127511127512127531126531126530126529127530128530128531128532127539126539126538126537127537128538128539128539127540126540126539126538127539128539128539128539125549125549126548126547126547126549126549127551125572125573126571126571127571128570126572126572126578125578125577124575126576126575128577126578125580124580125580125579125579127579126579126580126586124586124586124586125585126585126585126587000000000000126599125599126599127599000000000000128145126144126143126142128143129142129143127144126152000000126152000000127151127150127151128153126333125333000000000000000000128330127332127333127344126344127343000000128342128342128343129345000000000000127359126358127358128358127359127359000000127361127361000000000000127359127360127361126367126366126365126364127364127364127366127367127367126367126366126365126366127366127367128367126377125377126375126374126375127376127376127377126378125377125377126375126375127376127377127378127380126378125377125377126377127377127378128380127388126388126387125386127386128386128387128388127399125398125398126397127397128397128398127399126406125405126404125404126404128403127405128405000000000000000000000000127460128460000000000000128485126484127484126484128482129483129483128484127486125487126487126484128485128484129486128486127494127494127492127491127490129491000000128492128496127495126495127494127494128492129494129495128498127497127496127495128496129495129496129497127499126499126498127498128498129498128498128499127506127506127506126504128505128504128505128506))
 (.node 1 (.leaf 127524126524127523127522128522129522129523128524128532127531127531127530128530128530129531129532127535127536127535127533128534129534129535129536127545126545126544127544127543127544127545128545127553126553127553127552127551129551129553128555127569127569125567126565126565127566127567129568126572126572127571126570127570128570128571129571126572125572126572127571128570128571129571128573126587126586125585125585126585127585127586128586126596126596126595126594127594127593127594129594128159127159128158000000128157128156128157130158000000000000128165127164128164129164000000000000128334126334126334126333127333128333129333130336129349128349128348128347129347130347129347000000129353127354128352128351128352130352130352130354127360127361000000127359127359128358128359128360127364127364127363127362127363128362129363128364127366126366127364127363128363129363128364128365128387127387127386127385128385129385128385128386127399127399127398127397128397129397129398128398128437128438128437128436128435128436128436129437128444128444128442128442128442130441129443129444128454126453127453126451128452128452128452129454128457126456127456127455128455129455128456128456000000000000000000000000000000000000128471000000000000128477128476128476000000000000000000000000129482128482128481128480129480000000000000000000128499127499128498128498129498130498130498129499127517127517127516126515127514128514128515129517129578127579126578128577128577130576129578130578127583126583127583126582128582128581129583128583128585126584126583127583127582129583128583128584)
 (.leaf 127586126585126585126584128585128584129586130587000000000000127599127598128598000000000000000000129135128135000000000000000000000000000000000000129146128146129146127144130145130144131145130146129151127150129150127148129149130147129149000000130340129340129339129338130338131339131339131340130340129341129340129339130339131339131340131341130351129351129349129348129347130349131349131350129363128363127363128361128362130361130362129364129372127374127371127371129370129370129372129372128381127382127380128380128380130380129380129381129396128396129395129393129394130394130395130396129398128398128397128396129396130396129397129398128403127403127402127401129402129401130403129403128410128410127410127409128410129409129410129411129414128414127412128410128410129411129412130414128456128457127455128455129455131455130456130457000000000000128460127457128458130459129459130461000000129479129478000000000000000000000000000000000000128482129480129479000000000000000000000000000000128486129486128484000000000000000000000000128510127511128510128509129509130509129510130511128519128520128519127518128518129517129518130520129532129532129531128530128529129530129530129531129561128559129559129558130559131558130560131560128565127565127564127564128563131563129564130564130570128571128570129568129569130569130570130571128591128589127589128589130587130589129589131590130146129146129145130145130144000000132146132146130164129164130163129162130162131162131163132163130336130336129333128333129333131334130334131336131339130338130338130337130337131337131338131339)))
 (.node 2 (.node 1 (.leaf 131345130346130345130345131344132344132344132345131352130354130352130352131351131350131351131352130362128362128362128361129361130361130362130362129372128372129370128370129369132369130371130373131376128377128375130374130375131375131376131377130387128386128385129385130385131385131386131387130396129396130395129394130394131394131395131396129401129402128400128400130400130399131401131402129412129413128410128410129410130410130411130412130426129426129425128425129425130425131425131426130438129438129437128436131436131436130438130438129445128445128445129444130444131442130444130444130450128448128447129448130448130448130448130450130459128458128457128456130457131457131458132458130511128510129510129509130509132508132508130511130523129525129524129523130523131523131524130525131538130539130537130536131536131537132538132539130545130546128545130544130543130544130545130546130550130550130549129550131549132549132550131550131563128563129563130562131562131560132562132563130578129578130576130575130576132575132577132577131583129583128581130581130581130581132582131581130589130587130587130587130587132586131586132589131593130593130592128591131590131592131593132593000000130597129596130595130595132594131596000000000000000000000000130597000000000000000000000000130155129155130153129153130153131154131154131155131155130157129155130153130154131154131155131156131163130163130162130161131161132159133161131163131339131339130338130337131337131337131337132339132342131342131342131341132340132340132341133342132350131350131349130349131349133349133349133350)
 (.leaf 131354131354000000131352131352133353133353132354131368129369131368129366132366132366132367133368131388129388130387130386131386132386132387131388130391130389129389129388130389131389131389131390130391129392130389129389130389131389131390131391131393130393129392130389130391131390131391131393130403130403129401129400131401131400132402131402131417131417130416129414131415131415131415131417131427130427130426130425131425132425131427131427131441131441131440131440000000131440131440131442131453131452130452131451131451132451133452132453131454131453131452130452132451133452132453131454000000000000000000130461131461132461133461132463000000000000000000000000000000131466131467131468131516129515130513129513130512131513131514131516131519129520130520129518130518131519131519132521130528130528130527130526130526131525132525131526131527129529130528130527130526132525131526131527132534129533129532129531131532132532132533133534131549131548131547130545130546133546133547133548132556131556130555131554131554132554132557133557131568131567131566130564131566132566131567133568132572130572130571130570131570133570131571132572132586130587131585130585132584133585133585133585131593130593131590131590132589132591131591133593133147132146132146000000000000000000000000000000132151131153132151131151132151134150133150134151131328000000000000000000000000000000133327132328132332131334131331130331131330132331134331133332132341131341132340132340000000132340132340133341132346132347132345132344133344133344133347134348131358130358130357130357131357133356132358132358))
 (.node 1 (.leaf 131361130361130359130358131358132358132360133360132369132369131368132367132367134367134368134369133380130380132379132379133378134378133380134380131385131385130384130381131382134382132383133383131389130389131388131387132387132387132387132389131400130399130398130397131397132397132398133400131411130411130410130408131409132410132410133410132459132458131458131457132457133457133458000000132503132503131502131501133502133501133502134504132505132505132504132503132503134504134504134505132508132508132508131508133506134506133507132509131510130512130511132508132508132509132510132511131512130512130512130511131510132510132511132512131513130512130512130512131510132511132512132514131516130516131516130513131514133515132515134516131523131524131523130522131522132521132522133522132525130526130526130525131524134524132525133525133534132534132533131532132532134532133533134533133536131537132536132535132535133535134535134536131545130545130544131542132542134542134544132544132550131550132550132549132548134549134551133552133564132563132562131560133561134561134563134563133585132584132583131581133582133583133584133585132591132589132589132589133587133587133588134590134148132147133147000000000000000000000000000000134159133159133158132158134157134158134159000000134161132159133159133158134159134159000000134161133164132164131163133161133162134162134163135164133334133335132333132332133332134332000000134334133341132341132340000000132340133340134340133342133363132363132362132361132362134361135362135364132404131404132404131402133403133402134404133404)
 (.leaf 133407131408133406132405133405134405134406133408133421133421131421131421132420133420133421133421000000000000132431133430133430133429134431000000133437133438132436000000000000000000000000000000133441131442131440131440000000134441133441134443133444131445131444131442134443000000134443135446133458133458132457132456133456134456134457134458133471133471132470132469133469135470135470135471132509132508133507133506134506134506133508134508133554132554133553132552132553134552135554134554135149134150134149134148000000000000136148136150000000134159134159134157134158000000135159136160134328132328133327000000000000135326136328136329134331134331132331133329134329136330136331136331134350134349134349134348134348136347134349135350135356133356134356133354134354135356000000135356134368134368134367134366135366135366135367135368135375133374134374134373135373136374136374136374133396132397132396132396133396134395134396134396133401132401133401133400134400134400134400135402135415134414134414133413134413134413134413135415133421133420132420133420133419134420134420135420134451134450134450134449135449135449135450134451134458133458133457133456134456135456135457134457135505134505134504134504135504000000000000136505134521132522132521133519134519136520134520136523135526133525132525134524134525136524136525136526135530133529134529132528135529135527136529135529134534134533133533134532134532134531134531135534134535133535134533133533135533134531135534136534135538134538134537134536135536136536136537136538134548134547134546132544133545136545134546135548))))
 (.node 4 (.node 2 (.node 1 (.leaf 135562134563134561134560135561135561136562136562135570134570134569134569135569136569136570136570135570134570134570134569135570136570136570136571134576134576133575133574134574135574134575134575136152135152135151135149136150136149136150137152135152135153135152135151136151136150137152135153134340134340134339133338135338135337135339135339135341133342134340133340134340135340136340135341135352000000134351000000134351135351135352135353135357134357135356135356000000135356137356137358135368134368134367135366135366135367135368137369136374135373135373135372136371137371137372137372136379135380135379135378135378137376137378137380136383134382135382135382136382136382137383137383136388135389135388134388136387137388137388137389135389134389135389135388136387137388137389137389134393133393134393133392136390136390135392135392134404133404134404133402135403136403135404135404135408133410133408134406134406135407136407136408135428133429135427134426134426136426135428135428135438134438000000000000000000000000000000137438134443000000134443133441134441135442135442135443134451134451134450135449135449137449136450137450135455134455135453134453135453136453136454136455134457134458134457134456135456136456135457136458136462134462133460134460135460136460136461136462136469135468135467134467135467137466137466136469136471135470135470134470136469136470136471000000000000000000000000135477135478137478136479000000134520134520134519133519135520137519137519136520136539135539135538135537136537000000000000000000000000135540135539135538136538000000000000000000)
 (.leaf 135543135543135543000000000000000000000000136543135550135549133548134548135548136548135548136550134575135574134574135573135573137572135573136573137154136155136154135152135153137152138154137154136161136160136160135159136159138158137160137161136162136162136160136160137160137160137161137162136327136328135326000000000000138326138327138328137336134336135336134334136335136334138335138335137348136347136346135346136346138346138347137348137383136383136382136381136381137381137382137383136387136386135386136385137385137385138385138386137388136387136386135386137385138385138386137388135396134396134395135395135395136393136395137395136408135408135407134406135407137406136408136408137414134413134413135412136412138411137413137414135419134420134418134417135417136417136418136418136472136473136471136471000000136471136471137474137478135478136476136476137476138475138476000000136499134500134499000000000000000000000000000000136524136524136523134520136520137522136522136523135565135566136564135564136562137564137565138565137579136578136577136576000000000000000000000000000000136584135585136583000000000000000000000000137154137154137153135153137152137152138153139155000000000000000000000000000000000000137180137181137358136358137358137356138356138356139358139358136365136364136363136362137362138362137363137364137365135366136364136363136363137363137364137365138372137372137371137370138369139369139370139372137375137375137375137374138374139374138374138375137377137378137376137375137375138375138376138379138389137389137389137388138388000000138388138389))
 (.node 1 (.leaf 137390136390137389137389138389138388138389139391138401135400135399137399137399139398139400138401136404136404135404135404136403139402137404138404137406135407135407136404136404138404137406138406138438137438000000000000000000000000000000000000137445135444135443135442137443137443137443137445137452137452137450136450137450139450139450139451137455136455136454136453137453139452138454137455136459136460136459136458136458137458137458139460136471136471000000136471136471137470137471137472137474136472136471000000136471137471137472138472138475137476137474136472137474138472138475139475000000000000000000137504000000000000000000000000138514137513135513136513137511137512138512138513138519137519137518137518137518139517138517139519000000137533137532137532137532138532138533000000137552136552136551136550137552138552137552138552138555137555137554136552137552138552139554138556138557137557137556137555138555138556139556139557137561137560137559136559138558138557138560139560137572135573137572137572138572139571139573000000000000137579137579000000000000000000000000000000000000000000137581137579000000000000000000000000138149137149000000000000000000000000000000138150138158137160138158137158139157139156139157139158137163136162136162137162137161138161138162139162138181000000000000000000137180138180138181139181000000000000000000136185138186000000000000000000138205000000136205138204000000000000000000138205138335138335138335136334139333140333139336139337139356138356138355138354139353139353140356140356138362137362137361000000137361138361140361139362)
 (.leaf 139369138369138369138369139369140368140369140370138382137382137381137380138380139380138381139382000000138438000000000000000000000000000000000000138446137446137445136444137443139444138444138445138468137466138466137464138466139466000000139468138505137505000000000000000000000000000000139505137511137510137509137508137509138510139511139512138513138514137512137511137512140513140514138514139517137518138516138514138516140516140516140518137524136524136523136522137522138523139522138524138546138548138546138545139545000000000000140547139556138557138555138554139554140554140555139555139569137569138567137567138567139565139568140569000000000000138186138185139185000000000000000000140333139333139333139332140332141331140332140333138338137339138338138335139337141335139337139338138339137339137339138338138338139337139338139339138340137341137339137339138338139338139339139340138341137341137341137339138339139339139340139341138341138341137341137341138340139340139341139341139347138347138346138345138345140345139345139347140352139352139351139350139351140351140352141353140353139352139352139351140352140352141353141353139353139353139352139352140352141353141353141353139358139358139358138356140357141356140357140360140361137362137361138359139361139361141361140361139382138382138381138380139380140380139380141382139391138391139391138389140389140389141390141392139411139411137409139408139409140409140410141411139416137415138415137414139414139414140415140416140418137418137418137416139417140417140418140419139422139422137421137421139420139421139422140422)))
 (.node 2 (.node 1 (.leaf 139427139427138426137426138426141426141427141428139431138431137431138431139431141430139431139432138455137456137455138454138454140454139454139455140514138512137512137511139512140512141513141514138527138528138527138526139526139526139526141527140550139549139548138546140547000000140547140550140562138562139562138560140561140562140563139564000000000000139573139571139572000000000000000000000000000000000000000000000000139579139580000000141153139154139153140151140152141150142151142152140159138161139158139157141158142158142158140160140178000000000000000000000000000000000000141178140184139184139181138181140182141182141183141184000000000000000000000000000000141214142216140216140333140333139332140332141331141331142332141333140362139362140361138361141361142361141361142363141388139387140387139387140387141387142388142388141395140394140393139391141392142392142393142394141395139395140395140394141395142394142395142397140401140401140400140399140399141399142399141399140402139402140401140401000000142401141401141402141411139411139410139409140409141409141410142411140418140417139417139416140416140416141417141418000000000000000000139434140434140433000000000000140474140473140472138471140472140471140473142473140505139505000000000000000000000000000000141505141511139511138510140508140509141509140510140510140517140516140516138514140515142515142516142517140552140554140552139552139550141550142552142553140571140571139570140569141569141569142570142570142155140154141154141153142152143153143154142156140181140179140178000000000000142177141179142179)
 (.leaf 140184140183141183141183000000000000142216000000000000000000000000000000000000141215142328141327000000000000000000000000000000142327142329141328141327000000000000000000142327142328141336139337141335140334141334142334141336141336140347139347139347139345141346141346143346142348142368141368141366141366142366143366143367143367142369141369141369141368142368143367143368143369142372141372141371141370142370143370143371143372142375141375141374141373142373143372142373142374141381139380140380139379141379141378142380142381141389140389140388141388142388143388142388143391141401140401000000140401141399143399143401142401141405141405141405140403142404143403142404142405142411141411141411140410141410142410143411143411141420140420140419140418141418142418141419141419141430139431141430141428141428142428141429143430140447140447139445140445140444142443141445141446140456140457139455139454141455141455142456141457140466139466139466139465140464142465141465141467141523140525141523140521141521141522143523142523000000000000141529140529142528000000000000000000142570140571140570141569141569143568143569142571143153142152142151141150000000000000000000000000142158142158142158142157143157142156143157143158142333141333142332141331142331143331144332144333141351141352140350140350142350143350142350142351143354142354142354141353141352142353144354144354143361142361142360141360143359144359144360144360142363142364142363141361142361143361143362144365143382142382142382141381142381144381143382144382143393142393142392141390143391144391144392144393))
 (.node 1 (.leaf 143411142411142411141410142410143410144411144411142418141418141417140416142416143416144416142418142442142442000000000000000000000000000000000000142449141449140447140447141446143447142447142448141450140450140450141449142449142448143450142450142452140452140450140450141450143450142450144451141460140461140459140458141458142458142459142460142469140470140469140469141468142468142469142470000000141475142473140473142473143473000000000000142524141524141523141522143523144522144523142525000000142528142527142526143527000000000000000000142557141557142557141555143556143557144557144558143566142567142565142564143565144565143566143567144161143162143161142161144160143159144160143162143163142163143163143162144161143162143163144163000000000000000000000000142168143168143169143171143178141179142177000000142177144176143178145178000000142217143217141215000000000000000000000000144341143341143340142340144339144338145340145341143345141345143343143342144342145342145343145344142348142348143346141346143346143346143346143347143375142375142374142373143373144373144374144375144395143395143394143393144393145394145394145395144397143398143397142397144397145396145397145398143406143407142405142404143404144404144405144406143432143433143432143430144430145430145431145433143454141454143452142452144451144452144453143453142465142465141464141462142462143462143463144465142468141468142468141467142467143466143467143468144510143511142510143509144509145508144510145511143513143513141512143511144510145511145512145512142515142516142515142514143514145514143514144516)
 (.leaf 142519142520142519142518143518143517145518145520000000000000143528143527000000000000000000000000143558143559142557143557144557145557145558145559144561143561143560143559143558145559145560144560144563142561143561143560144559145560144560145562144570142571143569143568144568144569145569143569143167143168143167144165144166146164146166144168143175142176142175142174143174144174144175145175000000000000143183143182144182145182144183000000144335143335144335144333144333146334146334145337144338144339144338142336145337000000145337145338145342144342144341144340145340146341146341146342145360144360144359144358145359146359146359146360144361143361144360144360145360146360146361145361144374142375143373143372144372145372144373145374144382143382144381143380144380145380145381145382145382144382143382144381145380145381145382145383144390144389143389144388144388146388146388145390145393144392144391143391145390145391146391145393144400000000143399144399145398145398145399145400144405143405143404143403143403144404144405146407144412144411144411143410144410145410145411145412145417142418144416143416145416145416145417145418144424143424143423143422143422144423144424144425144451142450143450142448144449145449144450144451143459142459142458143458143457144458144458144460143462142462142460142459143459144460144460144461143462142462142462142460143460144460144461144462143465143466142465142463143463144463144464144466145511144510143510144509145508146509146509144510144600000000000000000000000000000000000000144601145160144160143159143159146159000000000000000000))))))
 (.node 16 (.node 8 (.node 4 (.node 2 (.node 1 (.leaf 144171143171143171143169145170147170145170146170145178145178143178144176144177145177145177146178000000000000143182144182145182145181145182000000145329143330145328000000145327147328146328146329145332145332145332143331145330146330145332147332145345143346143346145344146343146343146344146345145361144361144360145360146360147360146360146361146366144367145365145364146364147364146366147366145411144411144410144409145409146409146410145411146444145444000000000000000000000000000000000000144451144451144450144449145449147449146450145451144453144453144452144451144451145451145451145453144458143457144457144456145456145456145456145457146509144510145508144508145506146506146509146510146520145520145518143517145518146518146519146520145558145557144555145555146555147555146555145556000000000000143603144603144603145603145603000000146165146166146164144163147164000000148165148166147170145170144169144168146168146167147169000000146344145344146343146342146342146342146343147344147348146349146348145346147346148346148348148348146353146352146351146350146351147351147352147353146369145369145368146367147368148367147368146369145372145372144372145370146370146370146372147372146375146376145374144373145374148373147374146375147379145380146378146376146376148378148378147380146390145390146388146388146388147388147389146390146402145402145401145400145400146400147401147402146409145409145408146407146407147407146408146408145412145413145412145411145411146410146411147413145429000000144428144427145428146429146429146430000000146431146431000000145429146430147430146432)
 (.leaf 146444000000000000000000000000000000000000000000000000146524146523147523000000000000000000000000000000146552146551147550000000000000000000146564144563146562145560146560148560148562148563147566144567144566146564146565146565147566147567147177147177146176146173146174147174147175148175146178145177145177147177147177148175147177147179147334147335147334147332147332147332148333148334147337146337147337146337148336149336148336149338146342146341147340147340000000147340147341147341146342146342146341147340147340147341147341147342147345146345146344146343146343147344147345000000148381145381146381147379147380148380148381148382146396000000146396146395146395148395147395147397147398146398146397146396147396147397147397148398147402146402145401145400146400148400148401148402146408146409146408146407147407148407148408147409148416145415145415145413146414147413147414148416148450145451146450147449147449147448148450148451147464146462147462146462147462149462149463148464147512147512147511146510147510148510148511147512147571147572147570147570148570148571149571149571148178146178146178147178147177149178148178149180148330146331147329147328148328148329149329149330148338147340147337147336148336150337150337149338149359147359147358147357148357148357150358150359148369146369147368148367148367150367150368150370149374148373147372146372149372149371150373149373147392147392147391146390147389149390148390148392148401147401146400147399148399149399149400149401147410146410146410146408147409148409148409149411148425147425146423147423148423149423148423148424))
 (.node 1 (.leaf 148435146435147434146434147434149433148435148435147448147449148447147445148445149445149446150447148513147513147512147511148511148510149512148513000000148521147521148520148520149520000000000000000000148550148549000000000000000000000000000000149565147566146565148563148564149564149565149566000000000000000000146575148576148575148576000000149601146602148601000000147600149599150601000000148183000000148182148181149181150181149182150183149186000000000000000000148184149184149184149184148189000000000000000000149187150187150188151188149326148326000000000000000000000000151326151327149332147332148331148330149330149330150331149332150363149362149362149361150361151362151362151364149373149374148372149372149371151372151372150373149401148401148400148399149399150399150400150401149405148407148406147403149405149405151405150405148412147413147411147410149411149411149411151412149427147428147427149425149425149426150426150427149445148445000000000000000000000000000000000000148454148454148453148452148452149452149453149453000000000000000000148520149520150520000000000000149566149565147565148564149564150564149564149565150574148573149573149571149571151572151572150573149182148182149181149180150180152179151181151182149190148190148189148188150188151188150189150190150342148343148342148341151342152341152341152342149349000000149349148346150348150347150348151350150359150359150358148357150357151357150357152358150375150375150375149373150373151373152374152375151384149384149383148382150382152382152383151384151387150387150386149384151385151386152387152387)
 (.leaf 150401149401149400149399150399151399151400152401150405149405148405149405149405151405152405151405150424148423149423150421150422151422151423151424150427149427149426149425149426150426150426151427150436149436148435148435150434151434150436150436150446149446149445000000000000000000000000151446150516150515148514148513149514150513150514150516000000000000000000149520150520151520000000000000150560150560150558150558151557151558152559152560150601000000150601149599000000000000000000150601152182149184150183149182151182153181153182152182150191150191149190151188150189151189151189152191151329149330151329150327151327153328153328152329150346150345000000150343150343152345151345151346152365151365151364151364152363153364153364153365152368151367150366151366152366152365153367153368152379151377150376150375152375152375153377153378152387151387151387151386152387152387153387152387150394150394151392150392151392152392151393151393151399150399150398150397151397152397152398152399151406150406150405151405152405153404152405153406151414150416151414151414152413153413153414152416150417149417150417150416151414152416151416151417150420149420150420150419151419151418151419151420150424149424150424150423151423152423152424151424151428150428150427150426150426151427151427152428151446150446000000000000000000000000000000152446000000151457150456151454151455000000000000000000000000000000150458151457000000000000000000000000150513149512149511150511150511151511151511152513000000152178152177000000000000000000000000000000000000000000000000152193152193000000000000000000)))
 (.node 2 (.node 1 (.leaf 152331152331151330151329152329152330153330153331152353151353152353150351152351153353154353154354153361150360151360152358152359153359153360153361152382152382152381152380152380154380153381152382152394150394150394150394151393152393154394154394152400151400151399151398152398153398153399153400153411152412150410152409152410153410153411154411153414152414152413152413153412154412154413000000151424150424151424151423152423154423153424152424151514150514150513150513152513152512154513153513000000000000000000151520152520153520000000000000152563150564151562151561000000154562154563152564152566152566152566150565153566153566153567154567153571152571151571152569152570154568154570154571153574152574152574152573152572152572153573153574153185153185153184153184000000000000000000154185154192153192152191151189153190153190154191154192000000000000152193153192154192154192000000000000152342152342151342152340152340153341153342154344154357153357153357153355153356155354155357155357152375152374152373152372152372153372153374154374154380152380153378153377153378154378154379154380154402153401152400152399153399153400154400154401154406153406152405153404154405155405154405154406154413153413153412153411154411155411155412000000153433152433152432151431152432153432154432154433152441151440151440152438153440154440153440153441152441152441151440151440152440153440153441153442000000153450153450153449154450000000000000000000000000000000153453152453000000000000000000000000000000000000000000153577153578153577000000000000154328154328153327153326154326155326155327155328)
 (.leaf 154335152335153334153333153334154333154335155337153338152338153336152335154335155337154337154338153341152340152339153338153339154339154339154340154362153362153361153360154360154359155361154362154364154364152362153362154362154362155363154364153372152372153370153369154369155369155370154371153372152372152372153370153370155370154371154372153374152373152372152372153372154371154372154373154380154380154379153378154378155378155379154380154387153387152386153385153384154385154386154387153392152392152392153389153389155389154391154392000000152393152392152392153391154391154392154393154401154402153400153399153400156399154400156401154406154406153405154405155405155404155405156408154422154422154421154420154420154420154420154421153432152432153430153429153429154429155430154431154432152433152432153430154430155430154431155432153437152437153437153434154436156435154436154436000000000000000000154450000000000000000000000000155515153513154513152512155512155513155514155515154519154518154517154516154517155517156518155519000000000000152558154558000000000000155557000000154575153575153574153573153574156573154575155575000000000000000000154192155192156192000000000000155327154327154326000000000000000000000000000000155330155330154329154328155328156328156329156330155370153370154369154368155368156368156369156370155394154394154393000000154393155393155393155395156416155416155415155414156414157414157415157416156417154418155416155415156415157415157416156416154420154420155418154418156417156416157417157419154422154423154422154421154420155420155421157423))
 (.node 1 (.leaf 156435154436154433154432155432157432155434157435155514155514155512154512155512156510155513155513156518154518154517155516156515157515156517157518157189156189156188156188000000000000000000157190000000000000000000000000000000000000156214157216156333154333155332156331155332157331156333158334156348154349155347154347156346157346156348157350156353154352154352156349156349156351156351157353157359155357156358156356156357158356158358158358156370155370155369155368156368158369157369158370155382154383154381155381155380156381157382158383155388154387154387154386156386156386156387156388156400154400156399156399157399158399158400157400157409156410156408156408157407158407158409158409157413000000000000156411157411158411158412158413157415156415156414156413157413158414158414158415156430155430154429154429156428156428157429157430156565155567000000000000000000000000000000000000156574154575156573155572157573158573157573157574000000000000000000000000000000000000157211158211157330156330156329156328000000000000000000158330156338155337155335156334157336158336157336157338157341155341157340155339157339157339158340157341158354157354156353155352156351158352157352158354158358157358156357157355157356159355159357159358158361157363157362157360157361158361159360157362157362157363157363157362158361159360157362157363156365156366155364157363157362157363157364157365156366156367156366155364156364157364157365157366156367157368156367156366156365157365157366157367157376155378156377156376158375159374158375157377156381155380156380156379156378158379157379157380)
 (.leaf 156388155388155386156386156386159384157386159387156390155389155389155388156388158389157389157390158413157413157412157411158411158411158412159413158414157414157413157413158413159413159414159415156425155425156425156424157424158424158425157425157431156431156430155430157429157430157431157432000000000000000000000000000000157447000000000000157459000000000000000000000000159459157458159461000000000000156519157518158517158518158519000000158222000000000000000000157219159220158220160222157341157341157340157339157339158339158339158340157346156345156345156343157343158343158344158344158403158403158403158402159402160401159402160403159409158409158407158406159406159405159406159409159418158418158417158415159416160417160417160418159420158419158419158418159418160418160420160420157443000000157443156441158442158440158442158443000000000000000000000000000000158448000000000000000000000000000000000000000000000000158450158450000000000000000000000000000000158450158452158453157458000000000000000000158458159458159459159460158511157511000000000000000000000000000000000000158517158516158516157515158515158514160516160517000000158573158572158571158572159572159573000000000000000000000000157216159216000000000000000000000000000000000000000000159228161226160229159229160332159331158330000000000000000000000000000000160334159333158332159331160332000000161333161334158341157341157341158340158339159339159340159341159349158347157347157347158346160347159347160349159358159358159357159355159356161356160357161357160373159373159372158370160371161371160371160372))))
 (.node 4 (.node 2 (.node 1 (.leaf 158376157377158375159374159374161374159376160376160381157381157380157379159380159380161381161381160385159384158385159383160383161382160383161385159395159395158394157394158393160393159394160395160420159419159418159417160417160418161419161420158424158425158424159422159423160423160424159424159426158426158425157425159424159425160425160426158446157446157443157443158443159443159444159444159460157458159459158458159458159457161458161460159512158512158511000000000000000000000000160512160212160212160212160212161210161210161211161214160217159217000000000000000000000000000000161217160229000000000000000000160229161229160229160230160235000000159234158231160233161233161234161235160335160336160334160334161334162333162334162335159342158342158341158340159340160340160341160342159342158343158342158341159341160341160342160343161351159350160350160350161349162348162350161352161369160369159369160368160368161368161369161370160389158390159390160388160387161387162388160390160393158393158392158391160391160392160393160394161399160399159398160397161397161397162398161399159410159411159410159409160409160409160409160410160426159426159425159424159425161424161425161426160429158430159430159427160427161427160429161429160437160437159436160435160435160436160436161439159457159457160455160454161454162454162455162456000000000000000000160518160518000000000000000000000000000000159573159572160572000000000000000000161216000000160215160212161214161214161215161215162223161223161222161221162222162222162223163224160235000000160235160234161234161234161235162236)
 (.leaf 162334161335161334161333000000000000162333163334162350160351161349160349162348163349162350163350162365161365161364160364162364162364163364163365161370161369160369160368161368163367161369161369162381161381161381161381162380163380162380162381160402160402161401161400161400161401161402161402161404159404160403160402160402161402161403161405161426160426160425159425161424161424161425162426161450159449159449159448161448163447162449163450161454159452161452159451161452163451162453162454161461160461161460161458161459163458162460000000161512160512000000000000000000000000000000000000000000000000160518161517000000000000000000000000000000000000000000000000000000161558161558000000161210160210162210000000161208162208162209162210161216000000161216161215161215162214162215164216162223162223162222162220162221163221163222163223163225162225162224162223163224163224164225164225163226162225162225162224163224164225164225164227163335162335162334162333162333163333164335163335163338161337162337162335163335163335164336164337162347162346162345160343162345164344164345164347163349162348162348162346162347164347164347164348163360162360162359162358163358163359164359164360163366161367162365162364163364164364164365164366162373162373161372162372163373163373164373164374162388162388161387161386161387162387162387163388161396161396160395160395161396162395162396162398161400161399162398161397162397162398162398162399161413161413162412160410162411163411162411162412162426161426161425161424161424162425162425163426163434160434160432160431161432163431162433163435))
 (.node 1 (.leaf 161516162516000000000000000000000000000000000000000000162522162521000000000000000000000000161612000000162611164610162611000000163203000000163204000000000000000000000000163203162208161208000000000000000000163206163207163209163222162222162221163220164220164220163221164222164228163228163227163226164227164227164228164229000000000000000000000000162238164240163240163241163338163339163338163337164336165336165337165338164352163352163350162350164348164348165351165351164363162364163362163361164362164360165362165364164374163374162373163373164373165373164373164374164377163378163376163374164374164374164375164376163381162381162380163380163379163379163381163381163385162387161385161384163385163384163385163385164409161408161408163406163407165405164406165408162413161414161413162412162411163412164413163413162416162417162416162415163415163415163416163416162425161425161424161424162424163424163425163426163430162430163430163429163428164428163429164430163435162437161435163434163435163434165434164437163440162440163438163438164437000000164437164440164444163444163443163442164443165443165444165444164445163446163444163443164444165444165444165444164447162449163447163447164447164447165447164447163452163451162451163450163450164450165451164452000000000000000000162522162521163522164523000000164212163212162210162209163210165210164210165212164220164220164219164217164218165218164219165220164225164225163224163223164223165223165224165225000000000000000000000000163240164241164241000000165335163335164335163333000000000000000000000000)
 (.leaf 165345164345164344163344165343166343166344166345165366164367164366164365164364166365166366166367165368164368164367164366165366166366166367166368163391162392163391163388164390165390164391164391163393162393162393162392163391164391164392164394163395162395162394162393163393164394165395164395163415163415162413162412164413164413164414165415163423162424162422162421163420164421164422164422163425162425162424162424163423164422164424164425163442163442164441163440164440165440166441166441164609164610162609000000163608000000165608165611165218164218165217164216165216166216166217166218165223164223164222163221165221166221166222166223165234164234163232163232164231166232165232166234165238163238165236165235165236166236166237166238166339165338165337165336166336000000167338166338166341165340165340165338166339166338167340167340165341165342165340165340165339167340167340167342166368164368165368165366166367167367167368167369164382163381163381163379164380166379165381166381164395163396163395164395165395165394165396165396164398164398163398163398165398165396165398166398165399164399164398163398164398165398166398165400166404165403165403164403166401166401166404167404166409164411165409165408166408167408167409167409164416163416163415163413164414165414165415165416165429163429164428164427165427165428165428166429166453165452164452165451165451166451166452167453166219164219165218165217166217167217167218167219165228164227164227165226165225166225166225166226165229164230164228164227165228166226166228167228000000000000000000000000000000166242166243000000)))
 (.node 2 (.node 1 (.leaf 166336000000000000000000000000000000000000167345166344166343165341167342168341167344168345167346166348166346166345167345167346168346168347167360166360165360166358166359168357167360168361166373165373166371166370167370168370168370168371166379164380165378164378165378168378166379166380165396165398164395164395165396166395166396166396166405166406166404166404167404168404167404168406165416164416165415164414165414166413166414166415166429165429164428165427165428167427166429166429167442165443166441166441167440168441168442168443166458166458166456166455167455168455167457167458000000000000000000000000165561167560166562166563167206166206165206000000000000000000167206168206166214166213165212165212166212167213168214167214167216166216166213165212166213168214167214169216167219166219166218166217167217169217168218168219168354167353167352167352168352169352169353169354168355167354167353167352168353169353169354169355000000167363167362167362168361000000000000000000000000167365167364167363000000000000000000000000000000167368167367167366000000000000000000000000168386167385167385167385168385168383169386169386167394167394165393165392167392169392169392167393168401167400165400166398168398169399169399169401168410167409167409167408168408169408168408169409166419165419165419165417166417167416167418167419166422165423165421165421166420167422167422167423168437167435166434166433166434169434169435169437168440167439167438167437167438168438169438169439168447167447167446167445168446168446168447168448000000000000000000166458167458000000000000000000)
 (.leaf 167595168595000000000000167224167224167223167222168222169222169223169224168238168240166238166237168238170236168238168239000000000000000000000000167245168245168246168247169341168341168341168339000000000000000000170342169358168357168357168356169356170356000000000000000000168370168369000000000000000000000000000000168377168378167376168376169376170376170377168377169382168382168382168382169381170382170382170383169390168389168388168387169387169386170388170389168402167402168402168401169401169400170402170403168406168408168406167404168406170405169405170407169411168411167410168410169409170409169410169411168415166417166415166414167414169413168415168415167418166418166417166417168415168415168417168418167420166420166419166418167418168418168419168420167426166426166425166425167424168423168425168426169439168440168439167438168438169438170438169440168442168442168441168440169439169440169441168441169453168453167453167452168452170450170453170454000000000000000000167595168595169595168596169597169228167228169227167227170227171227171227169228168244167244167243167242168242169242169243169245168249000000000000000000168247169247169248169249000000000000000000000000168252169252169253169254000000169350169349169348000000000000000000000000000000169352169351169350000000000000000000000000170356169356169355169354000000000000000000000000169370168370000000000000000000000000000000170370170391169392169391169390170389171390171390171392170395168395167393169392169393171393171394170395170398168398167396169396170395171396171397171397))
 (.node 1 (.leaf 169412169412169411168410169410169410169412171412168425167425167424167423168423169423169424169425168427168427167427167426168426169426169427170429169434169435169434169432170433000000170433171435170455169455169454169453170454171454171454170454000000000000000000000000000000169555000000000000169566000000167564169562169564169563171564169565000000000000000000000000169566169565000000000000169591168591000000000000000000000000169591171592168596000000168595168594169594169593169594169596000000000000000000000000169597171596000000000000170206169206170206000000000000000000171205170208169222169222169221169220170220171220171221170222169233168231168231168231169230170229171232170231169233168234168232168231169233170231170233170234170236170236169235169234169234170235172237172238169248168248168247168246169246170247170247170248170251168250168249168248169248170248170249171251169253000000168252168251169251170251170252170253000000000000000000000000169254170255170255000000000000170375170374170373171373000000000000000000169420168421168420168419169419171418170420170420169427168427168426168425169425170424170426170427170439170438169438169437170437171437170437170438169563169564170562169560000000000000172561171564170216170216171214171214171214171214171214171215171220170220170219169218171218171218172219172220170247169246169245169245170244171244171245172245000000171374171373171372000000000000000000000000171379171379171378171377000000000000000000172379171390171390171388170386171388173388173388173389172397171397171397171396171396172396172397173397)
 (.leaf 171408170408170407170406171406172406172407172408172414171413171412169412171411172411172412172413170429171430000000170429170428172429171429171430171432170432171430000000170429171429171430172432172446171445171444171444172444173444173444173445000000000000000000000000171556173555171556000000172217171217170216171215171214173215172215173217173234170233170231171232172232173230172232173234173239172240172239172239173238174238174238172240171242170242170242172240173239172240172241172242172384172385172384171382172382172383174385173384172396171396172395172394172394173394174395174395172398172398172398172397173397174396173397173398172418171418172417172416172416173416172417173418173437171437172435172434173434000000173434173437173440171441172440170438172439174439174439174441172446172446172446172444173444174444173445174448172451172451172449171449172449174448174450174450173565171564172564171564172564174563173565173566172588170589170588000000000000173586172588172588172595171595172594172593173592173593173594173595172209172209171207172205173205173207174206174209173215171214171214173213173213175213174214174215172220172220172219171218173218174218174219173219173245172245171245171244172244173244173244174245172250171250171250171249173249173248173249173251173251172251171251171250172250173251173251173252173385173386172384172383174385175383174386174387174390172391173389173388173389175388175389175390173402173402172401173401174401175401174401173402174408172407172406172405173407175406174406174407173419172419172418172417172417174417173419173419)))))
 (.node 8 (.node 4 (.node 2 (.node 1 (.leaf 173425171426172424172423172424175424173424174425173594172594173592172592174591174592174593174594175210173209172210172209174209174209176209176210174237173237173236173235174235176235174236176237173241172241172240174238173240174240174240175242174245173245172244172244173244174244174244174245173257172256172255173255174255174255176255175257175396174395174395174395175395176394175396176396174409173409172408174408174407176408174408175409174416173416172415173414175414175414175415175416174425173425173424172424175424175423175424174425174439174439174437173437175437176437176437176438174555172556174555000000000000000000000000000000000000000000000000000000174559175559174560174560000000000000000000000000174567175567174567000000174214174214175213175212175212176212176213177214175218174218174217174216175216177215175215176218174223174224173222174222175222177222176223177223175227174227175227175225175225177226175226175227175230174230174229173229174229175229176229176230174244173244173243173242175243175243176244175244174244173244173244173243174243176244175244177245000000000000000000174258175258177256175258000000175383175383175383175381175381176381175383175384176396175396175396175395176394177394177394177395175415173415175414173413176414176413176414176415175428174430175428174426176427177427176427176428174432173432173431174430175428176428175430175432176439174441175439174439176438177439177440177440176443175444175442175441176442177441177442177443000000000000000000173559174560176560175560175561175567174567175565174565000000000000000000000000)
 (.leaf 175587174587175586000000175585175585176586176587174592174593174592175590175591175591175592176593176204174205174204000000175202176202177203176205176212175212176210176209177210178209178210178211177215176215174214175213176213178212177214178215176223175223175222175221176221178221177222177223175227175227175226175225177226178226176227177227176229174229174229175227175227177227176228178231177236176237174236176235177235178234178235178236177252176252174251176250176251178251178251177253176381175381175380175379176379177379178381176382177387176387176386175386177386178385177385177386177397176397176397176396177395178395178396178397176407176408175406175405176405176406176406177407176419174420176419176417176417177417177418177421175432174432174432174430175430176430176431176432176436176436174435174434176432176434176434177436177447176447176446176444176444178445178446178446177447176448176447176446177446178446178446000000000000000000000000000000175561176562176562177564176586174587175585175584175584178585178585178586176596000000175595175594176594178593176594178596177203176203175202000000000000177202177203178203178210177210177210177208177209178209179210179211177217175215177215177215178215179214179216179217178235177235177235177233177234179233179234179236178250177250177248177247178247178248179248179249178251177252176251177250178250179249179250179251176258177256177256177256178256179256178257177258177378000000000000000000000000000000000000177379177387177387177387177386177385178385178386178387178395177394177394177393178393179393179394179395))
 (.node 1 (.leaf 177403176403176402177401177401178401178402177404176406176405175405176403177403177404177405177405177557177557000000000000000000000000000000000000177582175583000000000000176581178582178583179583179210178209177209178208178208179208180209179210179213177214178212178211178212180211179213180214179225178225178225177224178224179224179225180225179236178237178236178235179236180235180236180237178238178238178237178237179236180237179237179238178248178247178246178246179246180246180246180247179248178248178247178246179246180246180247179247178386177386177385178385179385179384178385178386178412177412177411178410178410179410178411178412178417177417177416177415177416178415178416178418177434176434176432176431177431179432178432178434177437177437177436176434178435178434178435180437177564000000177564176562178563179563179564179565179583177583177582176581178583179581179582179583178585178585178585177583179583179583178585178586179590178590177590178588178589180588179588179591178595176594178593177593179593180593180593180594179201177202177201000000179199179201181201179201180209178209178208179207179207180207180208181209179217179217179216179214179215180215181215181216179223178223179222178221179221181220180222179223180228178227179227178225179227180227180228180229180233179233179231179230180230180231180232181233180234179234179233179233180233181233181234181234180239179239178238178237179237181238181239181240180244179244179243179243180243181242181244181245180252179251179250179249180249181250181251180252179379179380177379000000000000000000179379181380)
 (.leaf 180381179382179381179380179379181380180380180381179382179382179382179381180380180380180381180382179392179392179391178390179390179390180391181392179399177399177398178397179397180397180398180399179403177404178402178401178401180401180402179403178416177417177416178414178415179415179416180416179420177421177420178420178419179419180419179421180425177423177422177422179423179422180424180425179429178429179429178427180427180427180428180429179564178564178563178562179562181561179562180564179578179579177578000000000000000000000000180578180593179593179593179592180591180592180593181594180208179208179207180206181206181206181207181208180226180225179225179224180224181224181225180226181246180246180244180243181244182243182245181246181251180250180249179247180247181247182250182250180257180257180255180254181254181255182256181257179259179259180257180257180257181257181258180258181393180392179392179391180391180391182392181393180412178412178411179410180410181410181411182412180428179428180427179426180426180426181427181428181444179444179443179442180442181442181443000000180584178585179583179582179582180583180583182585181589179588180588180587180588182588181589182589181207180207181206180205181205181205182206182207181227180227180226180225181225182225182226182227181234181234181233180232180232181232182233182234182240181240181239181238181237182239183240183240182242181242181241181240182240183240183241183242180384180384180383180382180383181383181384181384181387179389181387180387181385181385182386182387181416180416179416179415181414182414182415181417)))
 (.node 2 (.node 1 (.leaf 180419179419180419180416181416181417181418182418181424180424179422179421181422182422182423182424180437180437180436181435181435183435183436183437000000181444180443180442181442183442182443000000180564180564179562181561181562000000182563182564181578180578000000000000000000000000000000000000183201182200182200181198182200183200184200184200181205181205181204180202182203182202183204184205183209181209181208181207182207183207184208183209181228181228181227180226182226183226183227183228183241181242182240181238183240184240183241184241182387181387181386181385181385182386183386182388182392182392180391180390182390182390183391183392182415181415181414182414182413183413182414182415182427181427180426180426181426182426182426183427183565180564180564181563182563182562182563183565184216183216183214183213184214185214184215184216182218182219182218182217183217184217184218185219183234182234182233181232183232185232183233183234184246182246182245183244184243184244184245185246183265181266181265181264182263183264183265183266183379183380181379182377000000000000000000185379182388182387182386181385182386183386183387183389184392183393182392181391183391183390184392185392182400182400181400181399182399184398183400184400183401181401182400181400183399183400184400183401182404181403181403181401183401183401184402183403183407181409182406181405183405183405183407183407183429183429182428182427183427184427184428184429182434182434183432182432184432184432000000184434184437183437183436183435183435184435184436185436183440182440182439182438183438184438184439184440)
 (.leaf 184580183580182579000000000000000000000000185580184587183587183586183586184585185585185586185587184588183588183587183586184586185586185587185588184589183589183588183587184587185587185588185589183599181599182598000000000000000000184598183600183623183624000000000000000000000000000000000000184626183626183625183624183623000000000000000000185209184210183209184208185208186208186208186209183237183237183236183235183234184235184236186236183255182255182255183254183253185254184254184255000000000000000000182268184269184269184270000000184382183382183381182381185381185380185381184383183407182407183405182404183405184405184406184406184413183413182413183411183412185411184412185413184417184418182416182415183416185415185418186418183421182421184420184420183419184420185421184421184428183428183427182426184426185426185427185428184436184436183435182434184434185434184434186436184439183439183438184437185436186437185438185439185567182567183566183565184565185565185566185567000000000000183569184567184568186568184569184569185585184585184584184583185582000000186584186585185586184586184585184584185584186584186585186586000000000000000000184602184603185601185602000000000000184627184626184625000000000000185625184627186205185204185203184201185203186203186204187204185217184217184216184215185215186215186216187216185220185219185219184218185218187217187218185220186243184243184242185241186241186241186242186243185254183253183252183252184251185251185251185252184263183263183261183260184261185260185261186263000000000000000000000000000000185277185278185279))
 (.node 1 (.leaf 186392185392184392183390185391185391186392187392185399183400184398183397184398186397186398186399185415183416184414184413185413186413187415186415184421183421185421183419184420186420185420187420184426184425183425183425184424186423185425185425185427184427184426184425184426185425185427187428000000185441184440184439185439186439186440000000000000185582185581185580186581000000000000000000185601184603185601183600000000000000000000187603000000000000000000000000000000000000186199187199187206186207186206186205187204188204188205188206187210186209186208186208187207188206188209187210186234185234186232186231187231187232187233187234186239185239186237186236186237187237187238186238186248185248184246185246185245187244186246187248185258184258184257185255185256186256186257186258185259185258184258184257185257186257186258186259185260184261185258184258185258186258186259186260000000000000000000000000000000186280186281000000187384186383184383185381185382000000188382188384186385186385186385186383187384188384187384187385186415185415185414185413186413186414187414186416186568186568185567185566185566187566186566186567186569184569186568185567185566186566186567187569000000000000186581000000000000000000000000000000186634185632000000000000000000186631186632187632188206187207187206187205188205189206189207189208187213187213187212187211188211189211189211188213186253185251185251185250187251187250187251188253186264185264186264186263186262187262188262187263186266185266186266185264186264187263187265188267187272185274185272185271186271187271188271187273)
 (.leaf 186280000000185279185278186278189277187279187279188388187387186386186385187385187385188386188387187407187408185407186405186406188405188406188407188423187423187422187420188421189421189422188422187423186423187423187422188422189422188422189423187434186434000000187431000000187431187432189433188436186436187434186434187434189433188435189435000000186440186439186438187438188438188439000000188571186571185569186569187569187569188570188571000000000000187599187599000000000000000000000000000000000000000000186604187604000000000000000000187634186636186635186634187632189633189634189635186640186640187640186638186638187639187640187640188199187199186199000000188197189197190198188199187227187227186225187225187224188225188225188226188233187233187232186230188231188231189232188233187276186276187276186275187274188274188275189275000000000000000000000000188283188283189284188284189389188390188389188388188387190387189388189389187394187394187391188391188390188391188392188393187398186399187397186396188396188396188398188399189422188422188421188421187420190420190421190421188439188439187438187437188437190436189438000000000000000000188571186569188570188570189571000000187639186638187639188637188638190636190638190639188644188643187643186640187640190641188642188643189223187222187221188221189221189221189221189222189230187229188229187227188227189228190229190230189240187240188239188238189238189238190239189239188244187245187244188242188243189244189244189244188256187257187256187255189254189255189256189256188268187267188267187265188265190266189266190268))))
 (.node 4 (.node 2 (.node 1 (.leaf 189277189277187276187276189275191275190276189277188409187409188407188406189406189407189408190410189416188416188415189414189414190414191416189417189424189424189423188422189422190422191424191424188648187648188648188647188646190645189647189647190198190198189197000000000000000000191197191198189212189212189211189210190210190209191211190211189221189221188219188219189219190219190220190220189244188243188242188241189241190240190242190243189268189269188268188266189266190266190267190269190283188283188282190280190281191281190282190283000000000000000000188284190285190285190285190286190384190384189383000000000000000000000000192384190404189404188403188402190402191402190403190405189407189406188406189404190404190405190406190407190427189427188428189425190427190426190427190428000000000000000000189571190571000000000000000000000000190635190634000000000000000000000000000000000000190636190635190634000000000000000000000000191636190636190636190635000000000000000000191636190640190641190640190639190638192639192640192641190645188646188644188644191644192644192645192646191205189204189203190203190202191202192202191203190219189219190218189216191217191217191218192219191231190231190230190229191229192229192230191230190239189239190239189238190238191237191238191239191260190260191259189256190257192258191258191259190269189270189268190268190267191267191268192270000000000000000000000000191289192289000000000000191388191389189388191387191386191387191387193389190397189398189397189396190397191396191397191398191402190402189402190402190402191401192401191403)
 (.leaf 191432191430191429191429192430193430000000192432191650000000189649189649190648193649192649191651191207190208191207192206193206194205194206192208192215190214190214190212191212193213192213192214191217191217190216190214192215192214192216193217192222190222190220190220192220193220193221192222191245190246190246191245191245192244192245192246191247190247190246190246191245192245192246192248192275191275190274191275191273192274193274192276000000000000000000191289192289192289000000000000191392192391190390191388193389193388192390192391191396190397190395190394191394192394192395192396192425190426192425191423191424194424194425194425193433190433192432191432192432194431194432193434000000000000000000000000000000192573192574193574192642192642192642192641193640194642194642194643193200191202193199192198000000000000000000194200193213191212191212191210192210194209193211194211193227193227192226191224193225193225193226193227192230192230192229191228192228194228193228194230192238191238191237191237192236193236193237193239193242191241191240191239192239193239193240193242193272191271192271192270193270194270194271193271193282192282192281193280193280193280193280193281193284191284191282192282193282193281193281194284193388193389191387191387193386195386195387194388192392191392191392191390192390193390193391194393000000000000000000192437193437193437193438000000194639193640193639193638193637000000194638195640194648193648193647193646194645195646195647195648194650192649193649193649193649195648195649195650000000193655191653193652193653193652194654000000))
 (.node 1 (.leaf 194201193201193200000000000000000000000000195201193234193235192233192233193232195233194233194234193236192236192235193235193234194234194235194236193237192237192236192235193236194235194236194237194249192248192248192246193246195245194247195249193274192274192274193273193273194272194273194274194277193277194277192276193275194276194277195277193285192285193285193284194284194283196283195284193390192390193388193387195387195387194389195389193398192398192397192396193395195395194397194398194425194425194425194424194423196425196425196426194431194431193430194429194429194428195430194430193585000000000000000000194583194582195584195585195201194201194200000000000000000000000000000000194219193219193218193217194216195217195218195218195224194224195223194222195222195222196223196224195233193232193231193230194230195230195231195231194243193243193242193242194242196240195242195243195245193246193245193243194243195244195245196245194250193250193248194249195249195248195249195250194250193251193250193248194249195249195250195250194257193256193256193255195256195255196257195257194261193261194261194260195260196260195260195261195265194265194264193265194264195264195265196265194277194276193275193275195274196274195275195276194288194289195287194287195287196287196288196289194397193396193395193394194395195394195396195397196412193411194411193408195410195410195410196412000000195578195577194577000000000000000000000000000000194578195578195577000000000000000000000000000000000000000000193585195585000000000000000000196640194640195640194638195638000000000000197640)
 (.leaf 196647195647195646195644195645196645196646000000195219194219194219194217195218196218197219196219195225195226195225195224196224196224197225196225196257195257194257194256196257197255196257197259195269194268194268195265196265196267197268196268196272194271194270194270195270197268196270197272197284196283194283196282197282197283198283198283196290195290194288195288196288197288197289000000196388194389195387195386196386197386197387197388195394194394194394194392196393198391196393196395195399194399194398194397195397196396196398196399195405194405194404194403195403196403196404196405195407194407194406194405195405196405196406196407196413196412196412194410195410197411196411196413000000196425196425195424197424197424196424196425195429195430194428194428196426196428196428196428000000194582196580000000000000000000000000000000000000195638196638196637000000000000000000000000196652195652196652000000000000000000000000000000196205196204195204197203197202198202197204198206198285196284197284196282198283199284199284199285000000000000196290196289197289000000000000000000197388196388196387196386197386198386199388199388197407195408195407195406196406197406197407198407196421195421196421197419198418197419197420198420196428196426197426000000196425197424199427199428000000000000195437195437196436197437197437197438000000197640000000000000000000000000000000000000198208196207197207196205198206198204198206199208198214196214196214197212197212198212198214199216197228196228197228197227198227199227199228199229197233196233196233196231197232198231198232198233)))
 (.node 2 (.node 1 (.leaf 197238196238197238197235197236198236198237198238198247198247197246197245198245198246198246199247197253196253196252196251198252198252198253199254197254196254196253196252197253198253199254199255197270197268196268197268197268198268198268199270199276197275196275196274198275200275199276199277199286197285198285198283199284199285200286200286198391198391198391197389198389199389199390199391197395196395196395196393197393199392198394199394197400196400196399196398197398198397198399198400197432196433197432198431198431200430198431198433197434196435196434196433197432198433198433198434198653198654000000000000000000000000000000000000000000000000000000000000199657200656198657000000199210198210197207198208199208199207199209199209198211197210197210198210199210199209199210199211198219197218198218197217199217200217199218200219198232197233197232198231198230199230199231199232199233197234197233197233198232199232199233200233199276197275198275198274199274200274200275199275198401197401197400197399198399199399199400199401198402197402197401197400198400199400199401199402198403197403197402197401198401199401199402199403199418197419198417197417198417199417201417201419199424197424199424198424200424201423200423201425200429198430197428199428199428200428201428201428198439197438197437197437199437199437200438200439200219198219198217199217200217200217200218201219200221198221198220198219200219201219200220201221199222198222198221198220199219200220201221201222199227199227198226198225199224200225200226201227200249200249199248199247199248200248201248200250)
 (.leaf 200266198268200265198264200264201264200266201266199270199270198271199270199269201270200270202271201280198279198278198277200278201276200278201280199285199285199284200283200283202283202284202285200389199389199388198387200387201387200388200389199397198397199396198396200397200395200397200398200405199405198405199403199403200404200405201405199411198410199410199409199408200409200409200410200425200426199424200424200423201425202425202425200429200430200429200428201428202428202428202430000000000000000000198439200439202438201440200440201204201205200203000000000000000000000000202204200210199210199209199209201209202209201209202211200223200223199222200221201221202221202222202223200243199243199240199240200241202239201241201242201257200255199255200253200253201253201255202257200276200275199275200275200275201274201275202275201276200278200275199275200275201275202275201276202283200283201281201281201281201281202282202283200414200414199414199414200413201414201414202416202428201428200428200425202425202425201427203429202436199437200436199434201435202435202436202437202204201204000000000000000000000000000000000000201220200220201219200218202218204218203219204220202224201224200223201222202222203222203223202224202239200241200239200238202239203237202239202240201253201253200250200250202251202250202252202253202271200270201270202269202269203269203270203271202387201387000000000000000000000000000000203387201389200389200388201387202387203387202388202389201393200392201393200391201390203390202392202393201394201393200392201393201393202392202393203395))
 (.node 1 (.leaf 202395200395200394201393201394203395202394202395202401200401200400200398202399202399203400203401202411200413200410200410201410204410202411203411203419202420202419201417203418203417204419203419202209201209202209203208203206205206205208205210203219203219202218202217203217203217204218204219202224202224202223202222203222205221204223203224204233202232203232202230204230204230204231204232202239201239202239201236202236203237203238203239202260201260201259201258202258203258203259203260202260202260201260201259202259203259203260203262203264201264202263202262202262203262204263203264203271202271202270202269203269204269204270203270204281202282201281201280203280205279205280205281203387202387000000000000000000000000000000204387203403202403202402202401203401203401204402204403204405203405201404201403203404204404204405205405203406203406203406203405204405205405204405205407203432203431203430203429204428205429203430203432000000204205000000000000000000000000000000000000203242202242202241202240204241204241204241204242203252202253202252202250203251204251204252204252204255202255203254202253203254204253204255205257203270203271203270203269204269205269204269204270204279203279204278202277204277204276205278205279205280203281203280203279204279205279205280205281000000000000000000204284205283000000000000000000203401203401203400202399204399204399205400205401205409203408204408203406205407206406206408206409000000000000000000000000000000205620204622204623000000000000000000000000000000204622204623204624000000000000000000000000000000204623204624204624)
 (.leaf 203625000000000000000000000000204624204624204625000000000000000000000000203627204628204628204629000000000000000000000000000000204629204630206631204644000000000000000000000000000000205643204645205217203217204214203214204214205214206214205215204248203248203248204245204245205246205247205248204252203252204252203251204251205250205251205253204253203254203252203252204252205253205253205254204263203262203262203262204260205262205262205263205265205265203264204263204263205264206264206265205274204274203273203273204273205273205273205275000000000000205283204283000000000000000000000000205388203388204387000000205386206386206387205388204395203395203395204395204394205395205395206397204417203417203416205416205416207415206415206416205441000000203440204439205439206439206440206441206207206207205206000000000000000000000000207207205215205217204214204214205214206213207214206215205226205226204225204223206224207224207225206225205227205228204226205226205226206225206226207228205242204242204241204241205240206241206241206242205244204244204242204242205242206242206243206245205246204245204244204244205244206245206246206246000000000000205282205281206281207281207282000000206387204387205386000000205386206385206386206387206403206402205402205401206401207401207402207403207414206414206413206413206413208412208412208414205424205424206423206423206422206423206424207424206429205429205428205427206427206426207428207429205438204438204436204435206436208436208436207438206457205459000000000000000000000000207456206458206644204645205643000000000000000000206643207644)))))))
 (.node 32 (.node 16 (.node 8 (.node 4 (.node 2 (.node 1 (.leaf 207207206207000000000000000000000000000000209208206212206213205211207210207211208209207212207212207219205221205219206219206219209219209219207220207229205228205227206227206226207227207228208229206230205231205230205229206229207229207230207230206247205248205247205246206246209246207247208247206251205250206248205248206247208247209248207249207259206259206258205258206258207258207259207260207271206271206270206269207269208269207270208271206271206272206271206270206269207270208271208272000000000000000000206282207282208282000000000000208391207390207390205388206388209390209390208390208393207393207392207390208391208390209393209394206394205395207393207392208392209393209394209394208399207399207397206397207397209397209398209398208403207404206403206402207402209401208403209404207409207410206408207408208407209407207409208409208414207415207414207412208412209412208413208414208430207429206429205428207428207427207428207429207432205433206433206432207432207432207432209434208631205630205630207629207629209628209629209630207216206216206215207214207215208215208216209216207225207225207224206223208223208222210224208224208229207229207228206226207227208227209228208229207266206265206265207263207263208264208265208266207278207279207278208277208277209277208277208278208385206385000000000000000000000000209384210385209401207402207401208400209399209400209401210402209412208412208411207409208409209409209412210411208420208418208418207418209417209418209419209420209420208420208420208418208420209420210420209420208441207441206440207439208439209439209440210441)
 (.leaf 207460208460209460000000000000000000000000000000000000207614209615208615000000209626207625208625208623209623209623209626209627208644207644206643000000000000000000209643209644000000000000000000206645208645209645208647208648210209209209209208000000000000000000000000000000209209208209209209209208000000000000000000211210208229207230207229208229208229210229209229209230208237207236207236207234208235209235209236209237209247208247207247209246210245210247211247209248209254207253207253208250209252210252210253210254209258207259207258207257208258209257209258210258208262207263208262207260209261209261210260209262209272208272208271207270209270210270211270209272209401209400209399209398210398211398210400210401209419209418209417208417209417210415211418211419210425209425209424208424209424211423210425211426208435208435209434207432209433210433209433209434000000000000208441208440209440211440210441000000209455208455000000000000000000000000210454209455209619207619000000000000000000000000000000210619209626208624209623208622208623209623209624209626209644208644208643000000000000000000210643210644000000000000000000000000208647209647209648210648211220210220210219210219210219211219211220211221209224208224210224208222210223210222210224210224209234208234208233208232209232210232210232210233209235208235208234208233209233210232210233210234209238209237208237208235209236210236210237210237209239209239208239209237209238210237210239210239210240209240209239208239209239210239210239210240211244210245210244209244211244212244212244211244))
 (.node 1 (.leaf 210247210245210245210244211244212244211244212246210253208253209252209251210251212250212251210252209258208258208258208256209257210256210256210257210262208263208262208262210260210260212262212263211275209273209272208272209272210272210273211273210385210385209384000000000000211383210385211385211396210397210395210394211395212394212395212396211398210398210397210397211396212396212397212398211403209403210402209401210401211401211402211403210411209409209408208408210407212408210409211409000000000000209460210458210459211459000000000000210613209615208613209613209612211613210613211615209626209627209626209623209624210624210625210626209627209628209627209626209626210625210626210627209629209629209628209627209626210626210627210628210630209630209629209628209627210627210628210630000000000000000000209630210630210630210630210632210644209644209643000000000000211642210643211644000000211210211210000000000000000000000000000000212214211213211213210213212212000000000000213214210217211216209216211215212215213214213215212216210230209229210229209228211228212228211229211229212244211244211244211242211243213243213243213244211256209256209255210254211254212254211255212256210257209258209257209257210256211256211257211257212268209269211267210267211267213267212268212269210273209272209272209272210271213270211272211273212278210278210277211275211276213275213276212278211403211403210402210401211401212401212402213403212408210407211407211406212406213407212406213407211427211427211427210425212427212427213428213428212439211438211438211437211437213437213438213439)
 (.leaf 210455209455210454000000210454211454211455211455211456211456209455210454210455211455211455212456210615210616210613209613210613211613211614211615210620210619000000000000210618212619211619211619211645210645210644210643210643212643211644212645211225211227210224210224211224213225212225212226212228211228211227210224211225212225212226212226213243212244211243210240212242213242213243214243213264212264212263212262212263214262214263214263212268212268211267212265212266214265213267214267212386212387211385210385212384212385212385214386213389212389212388212387212386214386213389214389213391212392212391212390213390213389214391214392213398212397212396212395213395213396214396214397213403211403211402211401212401213401213402213403213407212406212405211405213404214405214405213407211421211422211421211420211419212420212421212421213426211426211425211424212422212424213425213426213436212435212434211434213433214434214435214435000000000000211440212439213439000000000000000000212609211609000000000000000000213607213608212609211617210616210615211615211614212614212615213617211622211621210620210620211619213621212621212622211633000000211633210632211632212632212632212634000000000000000000000000211633212634212634000000212648210648210648211646212646212646213647212648214216213215213214213214000000000000000000000000213217213218212216213215214216000000215217215217212231211230211230211229212230213230213230213230213243213243212242212241213241213241214242214243214246213247213246213245214245215244215245214246213251211253213251213250213249214249214250214251)))
 (.node 2 (.node 1 (.leaf 213254212256211255212254213254213254213254215256213276213275213275211273213274213274214275213276214394213394213393213391214392215392215393214393213396213395213394213393214392215393214393215396213403213403212402212401213401215400214402214403214437213438213437213436214435000000000000000000213448000000000000000000000000000000000000214448212455211455211455211454212453213453213455214457213607000000000000000000000000000000000000214607214625212623213623211622212622213622214624214625213644211644212643212642213642213643213643213644213232212232212231212231213230214231214232214233215244214243213243213242214242214242214242214243214250213250213249213248214248214248215249215250215261214261214260214259215259216259215259216260215262214262214261214260215260215259216260216262214268214267213267214265215264216265214266214267213276213276213275213274213274215274214274214275000000000000000000213281214281215281000000000000214405214405214404213403214403216403215404215405215410213410214410214409215409215410215411215412213425213425212424213423214423214423214423215425213453212453212452212452213452214452214453214453000000000000213459214458214458216458000000000000214608213608213607000000000000214606216608216608214612212614214612213610215612216611215611216612213622212622212621213621214621215621214621214622215626214626214626214625214625215625215626000000214628214628214627214626214626215626215627216630214648212648213647212646213647215646214647215648214234213233213232213231214232216233215233215234214237214236213235213235214235215236215237215237)
 (.leaf 215249214249214248214247214248216247216248216249216265215264215264215262216263216262216263216264216280215280215278215277215278216278217279216280000000000000000000214281215281000000000000000000216406215406214406214405215405217404216406216407214416213417213416213416214415216414215416216416214420213420213419214417214418215418216418215419215420214422213420213419214418216418215419216420216426213426214426213425215425215424215425217426000000215434215433215432215433217432000000000000215448214448000000000000000000000000000000215449214455213455213453213453214453215453215453215454214617213617215616214616215616216616215616217617000000215626215626214625215625216625215626215626215631213632213631214629216630000000216630215631215637213636213636213634215635215634215635216637217229216230215229216228217228217228217229217230215232214231214230216230217229217230217231218231215242214242214242215241216241217241217242218243216251216251215250215249216249216250217250217251217258215258216257216256217256218256217257218258217258215259215258216257217257217257218258218258215266214266216265216264216263216264216264216265217276215277214275214274216275217275217276218277217391216391215391215390216390217390217391217392216395215397215394215393217393217393217394217395215414215414216413215412216412217412216412216413215453214454214453214453215451217451218452216453215607216608214606215607215607217607216607216607216613216613216612215611216611217611216613217613216618216618214618214617217617217616216618217618216624215624214622214621216622217622217623217624))
 (.node 1 (.leaf 216626215626000000215626215626216625216626217626215638215639215638215637216637216637217638216639216643215643215642214641215642216642216642216643215646215646215645214644215645217644216646217646216648215648214647215646215646217646216648217650217219216219000000000000000000000000000000218219218223217224217223217223217223218223000000218223218243215242217242216241217241218241218242218243217246216246217245216244218245219245218245218246217250216250216249216248218249219248218249217251218258217258217257217256218256219255218257219257000000000000216280217279217279218279219280000000217385217385217384216383000000000000000000219385217396216396216395216394217394217395217396217396217404217404216403216402217402218402218403218404218408215408216408216407217407219406218406218407217408217408215408216408216407218406218407218408217417215418216416215416217415218415218416217417217419215419216418215418217417217417217419217419218428217428217426215425217424219424219427219427217431217431215430217429218428218429219429000000217450215451217450215449217448218448218449219450000000000000000000217457217458218458000000000000216613216612216611216610216610217611217612218612217624216624216623216622217622218622218623218624216630000000216630216629217629217629217629217630217632216632215631216630217630217630218631218632216639215638216638216637216637218637217637217639000000000000000000217652217650219651219652000000218219217219000000000000000000000000000000220219219230217231217230217229218229218228218229220230219240217240216237216237218238219238220239219240)
 (.leaf 219243217244218243217242218242219242219243000000219257218258217257218256219255220255220257220257218261217261217260217259217259219259219260220262218264216264216264216262218262220263220264218264217272216271216271217269217270218269218270218271217276217276217275218273218274219274218275218275218387218388218387217385219385000000220387218388218403217403217402217401218401219401219402219403218415217415217414216413218413219413218415219415219424218424218423217423219423219423219424220424218458217458218456216455217454219456219457000000218604218605217603000000218602219602219603219604218607216607216607217607218605219605219606219607218632217632217631217630217630220631220631220634218644217644216643216642217642218642218643219644219651217650218650217650218650218650219651219652219240219240219239218238219238220238221239220240219248219248218247218246219246219246219247220248220257218257219255219255219255221254221256220257218269217270217269218269218269219269219269219270218270217271217270217269218269219269219270219271218271217272217271217270218269219270219271219272218275217276218275218274219274219273219275219275219277218277217276218275218275219275219275219276218278218279218278218277219277219276219277220279219389217390217390218387218388221387220388221390218403218404218403218402219402220402220403219404219413218413219413219411220412221411220412219413218617218616218615219615219614220614219616220616219617218617218616218615219615219616220616221618218626218625217625217624218625219624219625219625218641217642217641217639218640219640219641219642))))
 (.node 4 (.node 2 (.node 1 (.leaf 220235218234219234218232220233222232222233222235220240219240220239219238220238221238221239221240220244219244220243000000221243221244222244221244220248219248218247219246219246220247220248220249221254220253220252219252220252222252221253222253221254219255220253220252221252221253222253221255219261219260219259219258219259222259222259220260220386220387000000000000000000000000000000221386220392220392218392219390221390221390221391221394220401219401220400218398220399221399221400221401221411220412220411219409221410221411000000221411219428219428219427219424220426221426220426221428220453219455219452219451219451222451220452221455000000000000000000000000000000220596220597220598220606219606219605219604219605221604221605221606219610219609219608219607220607220607222609220609220614220614219611219610220610221610220612221612221635220635220635220634221635221635222636222636220636218637220635220635221635222636222636222636219641219642218640219640220640220639220641220642221646220646220646219644220644220644221645221646000000000000000000000000220654220654220656000000221220220220221220000000000000000000000000222220222231221231221229221229221229223228221230223230221238220238220237221236222236222236222237222238220396220396220395220392221394222394221394221395221400220400220399219397220398221398222399222400222420221420221418220418222417223418223419223420222423221422221421221421221421222421223422222423222423220424221422221421222422223422222423222424000000000000000000220429221429222429221430000000221448220448000000000000000000000000221447221449)
 (.leaf 220597000000000000000000000000221595221596221597220598220598000000000000220597221597221598221599221620220620219620220620220619222618221620221621221628220630220627219627220627221627221628221629221632220634220631000000221632221632221632222634220642219642219642219641220642222642221642221643221648221649221647221646221646221646223648223650221226220225220225000000222225000000222225222225222238221238221237222236222236223236223237223238221247220248220247221245223245224245222247223247223254222253221253222252222252223252224252223254221266220266221264220263221263222263223264222265222270220270222269221268221268222268222270222270000000000000221278222277223277223277000000000000222390221390221389222389222388224388223389224390222401221401221400221399222399222399223400223401221408221408221407220406222406223406223407222407221411221411000000221411221410222410222411223411223416222416222415222414222415223415224416223417222423222423222422221421222421223421224422224423222453221455220452222451222451223451222452222454000000221457222455221455222453222454223456000000221592000000000000000000000000000000222591222591221604220604220603221601221601222602222603222604222617221615221614220614222615222615222615222617222618220619222618222617000000222617224617223618221623221622220622221620221621222622222622222622221625221624220624221622221623222622222624222625221628220628220627220626222627222627222627223627223229223228222228221226222225224227223227000000224233222233222232223230223231225231225231224233223238222238222237222236223236225236225237224238))
 (.node 1 (.leaf 223252222252223251223249223250224250224251223251223258221258221258222256223256225257223257224258222268221268221267222268223266224266223268224268223391222391222390223389223389225389225390224391223403221403221402222401223401224401224402224403222407221408222407222406223406224406224407223407222410221410221409221408222408224407224408223409223417223416223416222415223415225414224416224417224423222423223422222421223421224421224422225423223451222451223450223450223449223450225450223451222591000000000000000000000000000000223589223590223618222618222617000000222617000000224617224618223631222631221629221628223627223627223629223631223652221652223650223650224649225649225649224650223654223654222653221653222653223653223654223654224222000000224222223220224220226220225221226223224241223241223240223239224239225239226240225241224244223244223243223242224242225242225243225244224245224245224244224244225244226244226244225245223251223252223251223250224250225250226251226252224258223258222257223256225257225256225257225258224265222265223264222263225264225263225264225265224392223392223391224390225390225390226392226393225397223398224397223396224396226396225397226397224399222399223398224397225397225397226397225399224401223401223400222399224399225399224399224400225425224426224424223424225423226424226424225426000000000000000000222430224430225430224430000000223589000000000000000000000000224588224589224590223603222603222602222602223602225600224602225604000000222606222605222604224605224605224605225607224612224613223611222610224610225610226612226612)
 (.leaf 224636224635224634222633224634226634225635226635225640224640224639223637225637226639226639226640224646223646224646224645224644226645224645226647225649224649224648223646224646226647226647226648225658000000224657224656224657224657225658226659226236225236225235225234225234226234226235227236226240225240224239224238225238226238227239227240225245224245224244225244226244227245227245226245225260223261224259224258225258225258225259226260225265224265223265225264225263225263226264226265224271223269224268223268224268225269226268000000225416224416225414225414225414227414226415225416225455224455225453223451224452226451225453226455225593224593225592224591225591225592226592226593225600223602224601224598224598225600225600225600224607224607223607000000225607226605225607225608224609224608224607223607224607225607225608226608225626223627223627223624225624225625225626226626225633224633223632223631225631227631226632227633225643224641225641225640226640227639227641227642226220226220000000000000000000000000227219227220227239225239225238226237227237228237227238227239226246225246225245226244227245228245228246227246227252226252226252226251227250227251228251227251225259225259225258225257225258226257226259226260226262224262225261225260226260226261226262226262226264225264225263224262226262226262227263226264226391226392225390225389226389226389228390227393227395226396226394226393226394228393228395228395226415225415225414225413226413227413227414226414227421224420224420225419225419227419226419227421227425226424226424226422226423227423227424228425)))
 (.node 2 (.node 1 (.leaf 227448226447225446000000000000000000000000227447226451224452226450226450227449227449226450226452226595226596225594225593226593226594226594227595227614226614225613226612226612226612227613227614226617224617224617225615226615226617226617226617227635226635225635226634227633228633228634228636227635225637226635225635227634228634228636228636225653224654224653225653225653227651226653227655000000226223227223227222000000000000227223000000228229227229227228227227000000227227229228228230227231226231227229227228227227229228228230227230227243226243226242226241227241229241228242228243227246226246226245227245228245229245228245228246228251226252227250227249227250228248229251229251228398227397227396227395228395228396229397229398227405225404227403226403228402229402229404228405226410226409225409225408226408227409227409227409226415225416225416226415226414228413227415228415227424227424226423226422227422228422228423227424227588226588227587000000228587229586228587228588226593226592225592225591228591229590229592227592227596227597226595226594226594227595227595228596226604226604225602225600227602228602228603228604227621225622227620225620227619228619228620229622228631227631227630227629227629228629228630229631227643227644227642227642228642229641229643229643228646227647227646227646228644228646229646228646227650227651226649226648228649228648228649228650229235228235227234228233228233228233229234229235228245227245227244227243228243229243230244230245228247227247227246228246228245229245229246228247228253226255228253227251228251229251228253228253)
 (.leaf 227258226257227258227255227256229257228257229259227259226259226257227258227256228257229259228258228389226389000000000000000000000000000000229389229395228395228393227393229391229391229394230395229401228401228400228399229399229400230400230401229402228402228401228400229400230400230401230402227413227414227413226412228412228412228413228413228419227419226417226415228415229417228417228419228428228429227427228427229426230427000000000000228596227596227595226594227595230594230595230596227610226610227610226607228609228609228609229611228627228626228625228624228625229623229626229627228629227629227628228626228627229627230628230628229633228632228632228631229631229631230632230633229634228633228632228632229632230632230633230634229638227637228637228636229636230636230637229637228650227650228649228649228648230649228650228650227657226656227656227655228655228654230654228657228659226659226657226656227657228657228657228659228264227263227262227260229262229261000000000000229390228390228389000000000000000000230389230390230395228396229395228394229394229393230395231395230402229404229402229401230401231401231402230402230406227406229405228405230404231404231405230405229406227407227406229405230405231405230405230406228413227413227413228412228412229411229412229414230449229448228449000000000000000000000000000000229449229450229448228449230448000000000000230451228454228452229452229452229452000000000000000000229603228603228602228601229601231600231601231603228606228606228605228604228604230604229604230606229608227607227606228606228606230606229606230606))
 (.node 1 (.leaf 228614227615227614228612228613229614229614229615229622228624229622228620228620229621229622230624230644229643229643229641230642230641230642231644230219000000229218000000000000000000231218231219230225000000000000000000229224232223232225230226230237230237229236229235230235231235231236231237230242229242230241230240231240232240232241232242230390229390229389000000000000000000231389231390231405230405230404230402230402231404232404232405230408228408229407229406230406230406231407231408230415229417229414228414230415230415230415230416230424230424229423228421230422231422231423230424230597230598230596230595230595231595231596231597229614228613228612228612230612230611232612230613230625229623229622229621229622230623230623230624231219230219000000000000000000000000232218232219230229230229231227230225230226233226233227231228232238231238230237230236231236233236233237233238231259229261229259229259232258232257232258232259231390230390230389000000000000000000000000232390230406230406230405231405232405232404231406232406231409230409230408230407231407231408231409232409231418229420229418229418231418231417231418231419231423230423230422230421231421231420233422232423231591230591230590229589231589231589232590232591231596230596230595230594231594232594231595232596232603231603231601231600231601233600231601232603232605230606229604230604231604232604232605000000231617229618230616230615232615232615233617233618232633231634231633231632232632232632233632233633232646230646230645231645231644233644231646232646232651231649231649230647232648233648233648233650)
 (.leaf 231653231653231653231652232652233652233653232653231655231656231655231653231653232653233656233656230660229660231659231659231659231659231659233660230663229664231662230662231662231662231663231663000000000000000000230665231665231665231665000000232219231219231218000000000000000000233218233219233232232232232232232231232231233231234231234232233236231236231235232234233234234233234234233236233247231246232246231244233244233244233245233246232259231259232258232258232257232258233260233261232391231391231390231389000000000000233390232392000000000000232424230424232424233424232425000000231589231589231588000000000000233587232589233589232590231590231589231588232588232589233589232590000000232605232605231604232604232604232604233606232610232609232608230606232608233606234608233610233652232652232651232651233650234650234651234651233218232218000000000000000000000000000000234218233254232254231253233253234253234252234253234254000000000000232260232259233261233261233262000000234395233395233394232394234394234392235394235395233396233397232395233395234395235395234395235397234400233401232401233400233400235399235400234400234412232411233411232409234410235409235411235412233418231419231418231417233416234416233417234418232425232425232424232423233423234423234424233424233596232596231595232594232594235595235596235596232603232603231601233600233601235601234602235603234613233612233612233612234611235612235612234614233615232615233615233615233615235615235615235616234618232618233618233617234617235617235618234618234622233622233621232621233619235620234622235622)))))
 (.node 8 (.node 4 (.node 2 (.node 1 (.leaf 234628233628233626232626234626235625235626235627234631232631233630232629233629234629234630234631233640233640233640233639234639235639234639234640234654232653233653233652234651235652235653235654233227232228234226000000234224236226236226236227235231233231234229234229234229235229235230235231235235233236234234234233235233236233236234236235235242233243234242234241235241236240236241236242234391232392233390000000000000000000000000235391233405233405233404234403234403234403234405235405233413233413234412234412235412235411234413234413234424233424233423233422234422236422236423235424234592233592234591232590234590236591236591236593234597233597233596232596235596236595235596235597233606233606232606233606234606236605234606234607234607234608233606232606233606234606234607234607235615234615233615234613234614236613236614236615234618234618233617234617235617235618236618235620235625234626234624234624234624236623236624236625234645234646233644234643235643235643235644235645235651234651234650233648235650236649236650236651235217000000000000000000000000000000000000236217235220235221234219234218234219235218235219237221236226234224235224235223235224237223236225237226236234235234235233235232236233237233237234237234235258234258235258234256234256237257235257236258235391234391234390000000000000000000000000000000236399235399234399235397235398237397237398237398235417233417234416233416234417235416235417236417000000000000000000233424235425236425000000000000235597234597235596235596236595236595236596236599236603235603235603234602235602237601237602236604)
 (.leaf 236627235627235626235625236625236624236627237627236632234632234631234630235630236630236631236632236654235654235654235653236653237653237654236654235658234658234657235657236657236656236657237658235662234662233661233661236660236660237661235662000000000000235665234665235665236663235666236667237236236236236235236234237234238234238235238236237237236237236236236235237235238235238236238237237238236238236237236236237236238236238237238238236244236245236243235242237242238242238244238244236246236247236245236245236244238244238246238247236250234251235249236249236248237248236249236250236258235258235257234256237257238256237257237258236413234413234413235411235412237411236412237413237421236422236420235420237420237420237421238422236425235425235424236423236423237423237424000000236590236591234590235588236588000000237589237590236593236594236593236591237592238592237592238594236601236600235598235597236599236599000000237601236611236610236609234607236609237609238609238610236616236615236614236613236614238613238614238614237621235622236620235620236620237618238620238621236627235627236625236624237624238624237626238626236632236632235631235630236630237630237631236631236640235640235639235638236638238639238639237640237653236653236652236651237651238651238652238653237654236654236653236652237652238652238653238654237218235218236217000000000000000000238217237219238238237239237238237237238237239237239238239239238240237240237239237238238238239238239239239240238242237242237241237241238241238240239241238242237258236258235257237257238256239257238257237259))
 (.node 1 (.leaf 237411235412236410236409238409238409237411237412238422237421236421237420237420237420237421238422000000000000236425236424237424000000000000000000237608236608237606237606237606239606237607237607237633236633236632236631237631237631237631238633238662235662237661236660237660237661237662238662000000000000000000236667237667000000000000000000239223238222238221237219239221238220240221239223238225236225238223238222239223239223240223239223238230237230238228238228000000000000239229239230238233237233238231238231238231000000238231239233238253237253238253236251239251239253240254240255238396237396237395237394237395239394239395238397239416237415238415237413239414239413240414240416238589237589000000000000000000000000000000000000238595238596237594238594238593240594240594239595238601237601000000236599238599240598238599238600238602237602237601000000237599238599238600238602239618238618238617238615238615240617239618240618238646238647238645238645239644239644238646239648237661237660237659237658238658239658239659238660237662237661237660237659238659239659238660238661000000237667237666238665238665238665239666000000239217238217000000000000000000000000000000241217000000238227239225238225239223241225240226239226240245238244239244238242239242241244241244240244239395237396237395238393000000000000240394239396239410237411238409238408239408239409240409239411240419238417239417239416240416240415241418241418000000000000000000238422239422000000000000000000239628239628239628239627240627241627241628241628238634238634238633237631239632240632240633240634)
 (.leaf 239636238638238635237635238635241635239636239637239658238658238657239657239656240656240657240658241235240234240233239233240233241233241234241235241240240240240239240238241238242238242239242240240241240241239240240240241240242240242240241243240246238246239245240245240244241244240245240246240252239250239249238248239248240250240250241250240402239402238402239402239401240401240402240403240407238407238407239405239406240406240407241407000000000000239422239421240421000000000000000000240597240598240597239595239595242596242596241597241635238634238634238633240633241633241634241635240640239640238639239640239640240639241639241640239644000000239644239641240641240643240643241643239652239652240651239650240650240651240652240653241217241217000000000000000000000000243217242217242256239256240255240254241254241253241254242256241398241398241398241397242397243396242397242398240407240406239406240406241406242406241406242406000000000000240421241420242420000000000000000000241592240594241592241592241590242590243592242592241599239600241598240597241597241598241599243600241605241604241604239602241603241602242604242605242609241609241608240608242608242608243609243610241616241615241614241613242613242612242615242616242617241617241616241615241616242616243616243617241619240619241617241616242617243616243617243618242622241622240622241621241621243620243621243622242635241635241635240634241634243633243635243635240652240651240650241649241649241649241651241652240656240655240654239653240654241653241654241655241660241661240659240658240659241660241660241660)))
 (.node 2 (.node 1 (.leaf 239664239664241665242665000000000000243225240226242225242224243224244225000000000000241233241234241233241232242232243232243233243234243243242242241243242240243241244241243241244243242245240245241244242244242243243243243244243245241400240401240401241398242398244398242400242400243403240403240402240401241400242400242402242402243410240410240409241407242409242408244409244411000000242420242418242418242418243418000000000000242593242594241592242591243592243591243592243593242607241607241606241605242605000000243604243607243612242612242611242611243610243611244611244612242615242614242613242612243612244612244613244614243626242626242625241625242625244624244625244625242632241630242630241628243629243628242630243632241640241640241639240639241639242639242640242641242641240643241640241639242639242640242641243641243217242217243217000000000000000000000000244217242221242222242221243219243220244220243220245221243231242231241229241228242228243228243229244231243234241233242233242232243232244232244233245234243244242244242243243243244243245243244243244244243250243251241250243248244249245248245249245252244601242600243600241599242599245599244601000000000000242605242604241602243601244603243603244603244609243610243609242608243608244608245608245609244627243627243626243625244625000000000000000000243634243633242633242632243632244632243632243633242640242639241639241639242639243639243639243640243650241651241649242648244649244648245650243650242655241654241653241653243654243653243654243654243657243658241656241655242656243655244656244657)
 (.leaf 242665243665000000000000000000244226243228000000000000245225246225244226245226245234243234243233243232244232245232245233246234244244243244243243244243245243246243245243246244245249244250244249244249245248245247245248245249244398244398243397243396243397245396244397244398244413244411244411244411244411246410246412246413245416244415244414243414244414246413246414000000000000000000243418244417245416000000000000000000244596243596243595244594244594244594244596245596244628243628244627244627000000000000000000245628245662244661242661244660244661244660246661245663245217244217000000000000000000000000247217247218245223244223245221243220245221245220246222246223245235244235245234244233245233246233246234245235244254244255244254245253245253246253245254000000245396243397000000000000000000000000000000245397245403245404245403243401246403246403247403246403246407245407245406245405245406247404246405246408245409244409245407245406246407246405246408247409246410244411245409244409245409247409246410247411245591243591000000000000000000000000000000246591000000245608244608245607245607247606246606000000000000245609245608244608246608246606000000000000245658244658244657244656244657246656245658245658246224244223245223245222246222246222246222247224246234246234245233245232246232247232247233246234246247245247245246246245246245248246246247246247246594244594244594245592247593247592247593246595247601244601246599245599247598248599000000000000246630246631246630245628000000000000000000247630246636244638244636000000000000000000246636246636))
 (.node 1 (.leaf 247641246641246640246640247639248639248639247640247644246644246643246643247641247641248643248643246649246649246649246648246647247647248649247649000000000000245663246661246662247662000000000000247218246218247218247217247216248216248217248218248231247231247230247228247229248229248230248231246234246234246233246232247232248232249232249233246239246240246239246238247238249237248239248240246253246253246252246251247251247251247252000000247401247400245399247398247399000000248400248401247403246403247402247400247401248401000000000000000000247404246403247403248403000000000000000000000000246606247604246604000000000000000000000000000000246606247606246606000000000000000000000000247641247641247641247640248639248639248640248641246655246654246653246652248653248652248653247654247657245658246656246655246656248655247657247657000000000000000000246662247662247661000000000000248217247217247216000000000000249215249216248217248226247226248225247224248224249224250224249226248242247242247241246239248240250239250240248242248247246247246247248246249247000000000000000000000000248599248598248596248597000000000000000000000000000000248599248598000000000000000000000000000000000000000000248599000000000000000000000000249646248646247645248645249645249644249645249646248652248653248651247650247650249650249651249652249216248216000000000000000000000000250215250216249232248232248231248230249230250230250231250232250235249235249234249233250233250234250235250236250236248237249235249234250234250235250236250237249239248239249237248237250236250237000000250239)
 (.leaf 250593248592249592000000000000000000000000000000248643248642248641248640248641250640249642249643000000247661247661247658249660249660000000000000250224249224249223249222250222000000251221251224250233250233249232249231250231251231251232251233000000250594250593000000000000000000000000000000000000000000250595250594000000000000000000000000250639250639249638250638251638000000000000251639249644249644248644248643249643250643250644250645249645249645249644248644249643250644250645250646250652249652249651249650250650251650251651250652251217249217250216250215250215251216252216251218251233250233250232250231251231252231252232252233251639250639250638251638000000000000000000252639250647249646249645249644250645251645251646251647250659249660249657249657252658253657251658252660251221000000251221252220253219253220254220254221253226252226252226251225252225254225254225254226252232251232251231251230252230253230253231253232252238251238251237251236252236000000253237252238252241251241251240000000251239252239252239252241252244251244251243251242252242252242253243253244252640251640251639000000000000000000252639253640251648250647250647250646251646252646252647252648252654252654251653250652252652252652252654252654253215251216252214000000253213253213254214254215253232252232252231252230253230254230253231254232252238252238251236252236000000253235253236253237252246000000252245252244253244254244254245255245253640252640252639000000000000000000254639254640253644251645251644251643252643254642254643253644253656253657251655252654252654255655255656255656))))
 (.node 4 (.node 2 (.node 1 (.leaf 254215253215252214253213253213254214254214255215254221254220253220254218254219256218255220256220000000254225254225254224254224255224256224255226000000252235252234252233254233256232000000255233255245252246253245253244254244255244255245000000254639252639000000000000000000000000000000000000254642252643253641253640254640256641256641255642254650252650252650252649255649000000000000255650255216254216254215254214254214257214256215255216256232254233254232253231255231256231256232000000000000255656255655255655256654000000000000000000000000000000000000000000000000256711255713000000257221256220255220256218256219256219257220256220000000255244256242256241256242000000000000000000000000000000255649256647256648000000000000000000000000000000256654256654256654000000000000000000257214257214257214000000000000000000258213258214257235257233000000000000000000258233259234259234000000257237257234257233257235259234000000000000000000257239257238256238000000000000000000000000000000257240257239257238000000000000000000000000256713255713256711255710257712257711259712258714258214257214257213000000000000000000259213259214259214258214258213000000000000260212260213260214259220258220259218258218259218260218261218259220000000258227258226000000259225260225259226260227259233258233259232259231260231260229260232261233260710257711259710259709000000000000000000261710000000000000258714259712259713260711000000000000260214259214259213000000260212260213261213261214259226259226259225259224260224261224261225000000260229260228260228000000260227260227261228000000)
 (.leaf 260229260231259230260228260229000000260229000000261213260213260212000000000000000000263212262213261219261218260218260215262217262217261217261218000000259226260225260224261224262224261225261226000000000000000000261235262234000000000000000000262710261710000000000000000000000000000000000000262224261224261223262221000000262221262222263222261655000000000000000000000000263654262654263654000000263212000000000000000000000000000000000000263215262217263214262213000000000000264214263215000000000000262229261228263228264228264229264230263649262649000000000000000000000000000000000000263703000000000000000000000000000000264702263704000000000000000000000000263708000000000000000000000000000000000000263229264229265229265230000000000000263650263649000000000000000000000000264650000000000000263708263707264707000000000000000000266221000000264220265219265219265218000000267220000000000000264230264229265229266229000000000000000000263654265654265653265654266654000000000000000000000000264707264706265706000000000000000000266215266216265214000000000000267213267214267215266225265225000000266222266223267223267224267225000000000000000000265654266654000000000000000000000000000000265706265705266705000000000000000000000000000000266705266704267704000000000000000000268215267215267214267213000000000000269214269215269214267215000000000000000000000000270213270214269221269220269219268219269219271219270220271220269223000000268222269220269221271220271221271222269226000000000000268224269224270224269225270226269702268702269700269700270699271698271700000000))
 (.node 1 (.leaf 270214269214000000000000000000271212270214270214271698270699270698270697270698272697272699272700271221271220270220271219271219273219272220272221000000271223271222271221272221273221273222273223000000272696272695272694000000000000000000000000000000000000272700272700000000000000000000000000272216272217272216273214273215275213274214274215000000272699273697000000000000000000000000000000274214272216273215273214274214275212275213000000000000273221273220273219274219000000000000000000275224275226274225274224275224000000275224275224277218000000275218276216276217277217000000277219000000275224275223276221276222278221278222277224277214277214276213276212277214279214279214277215278222276223276222277220277221279221278222278223000000000000275224275224277225000000000000000000279217279216277215279214279215280215280216280217279219000000278218279216279217280217280218280219280216280215279215280213280214281214282214282214282219280220280219280218281218282218282219282220282214282214282214281214282214000000000000283214282220282219282219281218282218283218283219283220283219282219282218282217283217283217285217285218000000000000000000286223287223287223287223288225289222287223287223287222000000000000000000000000084186083185083184083183084184084184084185084186084186083186083185083184084185084185084186085187084187083187083186083185084186084186085187085187084182084183084182084181084181085180085181085182085187085187084186084185085185085185085186085187089480088481088480088479089480089480000000089480089480089480089479089478089478090478090479089480)
 (.leaf 91195090195090195090194090194091194091195092195090479090479090478090477091477092477091478091478181427180427180426179426180426181426181426182427013294000000000000000000013292014292015293015294014214000000000000000000000000015214014214014214000000000000000000000000014223015223014223015223014290013290000000000000014288015288015289015290015188000000000000000000000000016186016187015188015202000000000000000000015200016200016201016204015208000000000000000000014207016206016207016208000000000000000000000000015233000000000000000000000000000000000000000000000000016249015249016249016182000000000000000000000000000000017181017182016206014207015207015204016206000000017205017206016216014214014214015214016214017214017215017216000000015232015231016230000000000000000000000000015292015293015292015291015290016290016291016293000000015297015296015295000000016294016295016296017181000000000000000000000000000000000000000000017193015194015194016193017191000000000000000000000000016201016200000000017201000000000000000000017215016215016214016213017213017212019214017214017248015249016249016248017246019246017248017249016288016289016288015286016286017286017287017288017298000000000000000000017298017297017297017298000000000000015313015312017313000000000000000000016323000000000000000000017322000000000000000000018171000000000000000000000000000000000000018171000000017201017200017199000000019197019198018199018208018209017207017206018206018207018208020209017219017220017219017218018218000000000000000000017285016285016283016282017282018282018283018285)))
 (.node 2 (.node 1 (.leaf 17287016287016286016285017285018285018286018287018308017308017307017306018306019306019307019308019180000000000000000000019178020176021177019180000000000000000000000000000000019184020185000000019216018216017214019214019214000000000000000000019230018230000000000000000000000000000000020230018283017283017282017281018281019281019282019283018304018304017303017300019302021301021302021303019316000000000000000000019314020314020315020316020171018171000000000000000000000000000000000000000000000000000000000000020185022183021184000000020189000000000000000000000000000000000000000000020200019200018199019198020198021198021201021202000000019212020210020209020210000000000000000000020232019232019231019230020230020230020232020233019235018234019235019232020232020233020234020235019236019235018234019235019234020234020235020236019237019236019235018234019235020235020236020237019238018238019236019235019236020236020237020238019241018240018240018238019238020238020240020241021178019180021177020176021176022176023179023180000000021205020202020201021203022203000000000000020238019238019238019237020237021237021238021238020241019241019241019240020240021240021241021241020244019244019244019242020242021242021244021244020246019246019246019244020244021244021246021246020250019250019249019247020247021247021249021250020250019250019250019249020249021249021250021250020254019254019253019251020251021251021253021254020255019255019254019253020253021253021254021255020256019256019255019254020254021254021255021256020257019257019256019255020255021255021256021257)
 (.leaf 20258019258019257019256020256021256021257021258020259019259019258019257020257021257021258021259020260019260019259019258020258021258021259021260020289019290020289019287021288021288021288021290020311020312020311020310020310022310021310021311021318020318020317020316021316022316022317000000022174000000000000000000000000000000000000000000000000020196021196021193000000022194024194022195022196022196020196021196000000024194022195023196000000000000021203021202022202023202024202023204021261020261020260020259021259022259022260022261021262020262020261020260021260022260022261022262021263020263020262020261021261022261022262022263000000000000021318021317022317024316000000000000000000000000000000023183000000000000000000000000023190000000000000000000000000000000000000000000023204000000022203022202023202024202024203000000000000022208022207023205023206000000000000000000022263021263021263021262022262023262023263023263022266021266021265021263022263023263023265023266022267021267021266021265022265023265023266023267023294021294021292021292022291023290023292023293022306022307022306022305022305023304023305023305023392023392000000022390000000000000024391024392024235022236022235022234024233024233024234026236023268022268022267022266023266024266024267024268023269022269022268022267023267024267024268024269023271022271022270022269023269024269024270024271023289022289022289022287023287024286024288024288023304023304022302023302023300024300024302024303024391023391000000000000000000000000000000000000024272023272023271023270024270025270025271025272))
 (.node 1 (.leaf 24286023287023285023285024284025284025285025286025310025309025308025308025308026308026309026310000000000000000000000000025318000000000000000000026223000000000000000000000000000000000000000000025286024286024285024284025284026284026285026286025297024297024296024294025295026295026296026297025299024299024298024297025297026297026298026299025300024300024299024298025298026298026299026300025300024300024300024299025299026299026300026300025303024303024303024302025302026302026303027305026312025312025311025310026310027310027311026311026563000000000000000000000000026561027562027563000000027238027237026237000000000000000000000000000000027241027240027239000000000000000000000000000000027243027242027241000000000000000000000000028244027244027243027242000000000000000000000000027248026248027248027247028247028246029248028248027250026250027250026248027248028248029249029250027260027261026259027258028259029259028259028260026273025273025272025271026271027271027272027273026274025274025273025272026272027272027273027274026275025275025274025273026273027273027274027275026286025286025285025284026284027284027285027286027309026309026308025306027307027307027308028309026314026315026314026313026312028313027313028315027570026572025571025569027568029570028569028570000000000000000000000000028135000000000000000000028176027178027177027174000000000000029175028176029244028244028244000000000000000000000000000000029248028248028247028246029246000000000000029247029252028252028252027250029250030250030251030252029253028253028252028252029251030251030252030253)
 (.leaf 29254028254028253028252029252030252030253030254029255028255028254028253029253030253030254030255029256028256028255028254029254030254030255030256029257028257028256028255029255030255030256030257028269026270026269026268029267029267029268028270027286026286026285026284027284028284028285028286027298026298026297026296027296028296028297028298028563027563027562026561028561029561029562028563028575026576026574027575028573030573029574029575028584000000027583026581028582029582030583029584029187000000000000000000029187000000000000000000029261029261028260028259029259030259030260031262028276027276027275027274028274029274029275029276028277027277027276027275028275029275029276029277028286027286027285027284028284029284029285029286000000029317028317027316029316030316000000000000029552000000028551028550029550030550030551030552029572028570028569029570029570030568030569030570029575028575029574028573030573030575031575031577030641000000000000000000029640000000000000000000031263030263030263029261031262031261031262031263030268029268029267030266030266031266031267031268029278028278028277028276029276030276030277030278029279028279028278028277029277030277030278030279029280028280028279028278029278030278030279030280029281028281028280028279029279030279030280030281029282028281028281028280029280030280030281030282029282028282028281028281029281030281030282030282029284028284028284028282029282030282030284030284029285028285028284028284029284030284030284030285029286028286028285028284029284030284030285030286029290028290028290028288029288030288030290030290))))))
 (.node 16 (.node 8 (.node 4 (.node 2 (.node 1 (.leaf 29295028295028293028291029291030291030293030294029295028295028295028293029293030293030294030294030541029543028540029539030539032539031542032543030550029550029549029548030548031546032548031548029560028558028558029558030558031558031559031560000000000000000000000000000000032170031172032172032255031255030254030253032253032253032254033255031272029273029272030270031270032270032271031273032308031308031307031306031307032305032308032309000000030316031314031313031314032314032315032316031536031536030535000000031534032534032535032536031544030546030543030542030542032542032543033546031567030567030566030565030565032567032568032569031578031578031577031575031576000000000000000000000000000000030581031580000000000000000000000000000000000000000000000000032127000000000000000000032169000000000000000000000000000000033168033169033255032255032254032253032253033253034254034256032269031269031268031267032267033267033268033269000000032312032311032311000000000000000000000000000000000000000000000000032316000000000000000000032534031534000000000000000000033532033533034534032548031548032548031546032546033548033549033550032565030563030563030561032563034561034562033563033115033115033115032113033113034113034114033116033120000000031120032120033120033119033120000000034256033255032254032253033253034253034254034255033268032268032267032266033266035267035267035269032299032300033299032298033298034298033299034300000000032305033306032305032304033305000000000000033556033556031556033555033554034556034557034558000000000000000000000000033596034594034595034596)
 (.leaf 34112033112033111000000000000035110035111035112000000000000033187032185034186035184035187000000000000000000000000033197034197035197000000000000034273034273034272034272035271036272036273036273034465000000000000000000000000000000035464035465000000000000033473033472034472000000000000000000035527033529032527033525034527035525036527035529034529034530034530033529035527035529035530035531034536033536033535034534033535035534035535035536034546033548033547033546034546035544035547035548034559033557033556033555034557036556035556035557033584032582034583033580034582035580035581034584034594033596033595033594034592034592035593035594034609032610032609000000034607035609034610035611035114034114034113034112035112036112036113036114035128033127033126000000035126036124035125036126000000000000000000000000035135035134037135037135035182034184034181000000035180036180036181036182000000035190034189034188000000000000000000036190000000000000034198034197035197035197035197035198035253034253034252034251000000000000000000000000036294035293035293035291035292036292036293036294036302034303035301034301035301036301036302036303000000000000000000000000035308000000000000036310035464000000000000000000000000000000000000037464035534033535034533033533035532036534036535036536034550033549034550034547035549037548037548036549035556034558034557034556035556036554036555036558035568034570034569034568034568036566036567035569035588033589034587034586034588036588035587036588035593034593034592034591035593037591037592037594034599000000034599034596035598035597036599036600))
 (.node 1 (.leaf 35648000000000000000000035646036646036647036648036112035112035111035110000000000000000000000000036128034130035129035128036126000000037127037128036136000000000000035136037135037134038135037136036180035180000000000000000000000000000000000000036192035192035191000000036190037190037191037192036259036259036259036258037257037257037258038260037275036275036275036273037274038273038274038275036288035288035287036285036286037284036286036288000000000000000000035471036471037471037472000000036496000000000000000000000000000000037495037496000000035505035504034503036503037503000000000000036551036551035550034550036549038550038550037551036574034572035573035572037570037570036572036572036601035599034599035599036599037599037600037601036609035611034610035609036607036608037610036610036640034641000000000000000000036639037639037640036649035649035648035647036647036647036648036649000000000000000000036150037150038150038151000000000000000000000000000000037173038173038174000000037193036193036192036191037191038191038194038195037204036204035203000000037202039202038203039205037262037262037262036260038261038260038261039262037265037265037265036263038263039263038264039266038277037277037276037275038275039275039276039277038278037278037277037276038276039276039277039278038279037279037278037277038277039277039278039279038280037280037279037278038278039278039279039281038282037281037280037279038279039279039281039281000000000000036504036503037503038503037504038505037526036526000000000000000000000000000000000000037538035538037537036536037536038536037536038536)
 (.leaf 37568035569036567036566037566038566038567038568036579035579036578036577037577039575038576038577037583036581035581036581037581037580037582038583037594036596037594037592037592038594037594038594036603036603036602036601037601038601038602038603037640036640036639000000036639037639038639038640037657036657036656036655037655038655038656038657000000000000000000000000000000038673037673038673038134037134037133037132000000000000000000000000037143037144036143037142038142039142040143038143000000000000000000000000038151039151038152038152000000000000000000000000000000038152038152038153038198038197037195037194038196000000000000000000038205037205037204037203038203000000039204040205039272038271038271038270039270040269040271040271039274038274038273038273039272040272040273040274039275038275038274038273039273040273040274040275039283038282038282038280039281040280040282040283038283038284038282038282039281040282040283040285038299037299036296038297038297039297039298039299000000037307038306038305000000000000000000000000038496037496037495000000038494039494039495039496038505000000000000037503038503039503039504039505038518038518038518036516037516039518039519039520038532037534036533037532037531039532038532039532038547037545037544037543038545038543038545038545038557036559037558037557037556038555039556038558038602038602037601037600038600039600038601039602038613037613038610036610038611040610039612039613038639037639036639000000037637038638038638039641039041000000000000000000038039039040039040039042000000000000000000000000000000039061039061039063)))
 (.node 2 (.node 1 (.leaf 39065039065040065039137038137039136038135000000041137041137039138039175000000038174038173039173040173040174000000039194038194038191039191039192000000000000000000039209039209039209038207039207041208041208040209039216000000038215038214039214041212039215040216039261038261038260038259039259039259039260041261039301038301039300038299039299039299039299041300000000000000038505037504039504040504040505000000039512037513037511039512039512041511041512041513039569038569038568038567038568040567039568039569038572037574038571038570038570040570040571039572039575039575037575037574039573040573040574041577039583038583037582037580039581040581040582040583039588038588039587038586039586040588039587040588039599038599038598038595039597040597040598039598038614038614037614038614038614040612040613039614039624000000000000000000038622039622040623040624039636037635037634037634039634040634039633039636038644038645038644038641039643040641041643040645039648037648038647038646039646039645040647040648039036000000000000000000040034041036041037040036039040038039000000000000040037041039040039040039039046038045038045038045040045041045041046041047040050038051038051039050040050041050041051041052039068000000000000000000040065040066040067041067040128000000000000000000040126000000000000000000040144038143040143039142040142042142041143041144000000038153038152038152040152041150040152000000000000000000039175039174040174041172041173041174000000000000000000039220040220041220041221000000000000000000000000000000040310000000000000000000)
 (.leaf 39408000000039406000000039406041407040407041409000000000000000000000000040419041419040420040420000000000000000000000000000000000000000000040481040497039497039496039495040495000000042497042498039518039520039519039518040518041516042518040518040539038540038539038538040537041537041538041539040548038548038545038545040546041546041547040546040552039554039551039550040552040551040552040554040561039561038559038558040559041559041560041561040589039589039588039587039587040588041588041589040604038603040601039602040602041602042602041604040613039613038614039613040611041611040613041613040651038650038649038648040649041647042649041651040656039656039655039654040654041654041655041656041049040049040048039046041047042047042048041049041057039058039057039057040056041056041057041058040060039061040060039058041057041058041059041060040062040062039063039061040062041061041062042062041064039065039065040062040062042062042063041065000000000000000000000000041079041079041079042081000000000000000000000000000000041083041083042085041097000000000000000000041095041095041095041097041098000000000000000000040098041097041098042098041133040135039133039133000000000000000000000000041141040141040140039138041139000000000000000000000000041146041146040145041145000000000000000000041148040150041148039146000000000000000000000000041173000000040174040173000000000000042172042173000000000000000000000000041195042195042196000000041208041208041208040206000000000000000000000000041212041212041212040210041210000000042211042212042281040281041281041279042280043280043281043282))
 (.node 1 (.leaf 41288041287041286041286042286042286041287042288041299041300039299039299041299042299043299043300041397000000000000000000000000042395041397041397041413040413040412039410041411042411041411042413000000000000040505040504041504042502042505000000041514040516041515041513000000000000000000000000040528040527040526039525041527041526041528041529041532039532040531040530040531041531041531042532041541040541040540040539041539042539042540042541041562040562040561039560041560042560043561042562041569039569039568040567041567042567042568042569040578040578041577040574041576042576042577043577041588040588039587040588041588041588043589043590041595040595040592041592041593042593041594042595041623040623039622040621041621042621042622042623042642041641041640041640041640042640042641042642041663040663039661039661041661042661042662041663040674040674040673040672041672041672042671042672040679039679040678040677041677042677042678042679041702000000040701000000000000000000042701042702041715000000000000000000041711042711042712041713042044040044041043041040042042043040043041043042000000000000000000041195042195043195000000000000042211041211041210042209000000000000000000000000042262041262041261041260042260044261042262042262042415042413041414041413042413042413044413043413042421040420040420041419042419043419043420043421041431000000000000000000041429043430042430043430042490000000000000000000041489042489042491043490042505000000041504041503042501043503042503042505042522042522040521041520042520043520042521043522042533041533041532041531041531042532043532043533)
 (.leaf 42543041543041542041541042541043541043542043543042555040554040554040552042553044552044553043555042566041566041565042564042564043564043565043566042579042579040578041577042577043577043578043579042583041583041582042580042581043581043582043583043584042583042583041583042583043583043584043585042595041595040594041593042593044592043594043595042603042602041602041601042601044601044602043603042604041604042602041602043602044602043603043604042613041613040613041611042611044611043612043613042622040622041621041620042620043620043621042622042637041639042637042636042637043635043638044639041663041663041662041661042661043661043662043663043687041687042686040685042687043685043686043687042689040690041690041687043687043687044689043689042695000000041696041693042695043693043696042696000000000000000000000000000000043700042700042701042712041712041711041710042710043710043711043712043068043069041068041068043068045066045069045069043080042082042081041079043080044080045079044080042090042089000000000000043089044089043089043090043116042118042115041114042115044114044115044116044125000000000000041123043124043124044125044126043175042175042174042173043175044175044176044177043194042194042193042190043192045191045192043193043213042213042212042211000000000000000000000000043217042217043217042217044216044215044216045218043293042293041291041291043291044291045291045292043401042399041398041397043399044399044400044401043406041406043405042404043404044404045405045405044407041406041406043405044405045405045405044407042422042422042421042420043420043419043420044422))))
 (.node 4 (.node 2 (.node 1 (.leaf 43474000000000000000000043474044474044475043474043483042483042482041481043483044481044482045484000000000000000000000000043496045496043497043497043497000000000000000000000000043497043497045497043520042520042519042518043518043518043519043521043527041529041528041526042527043526044526043527043541042541042540042539043539044539044540044541044563041563042562043561043561045561044562044563043577042577042576042575043575044575044576044577044602043602042601042600043600044600044601044602043608042608042607041608042607043607044607044608043613042613042612042611044611044611044612044613043628042628042627042626043626044626044627044628043634042634042633042632042633044632044633044634043653041654042654042653043651043652043653043653043661042661042660042659043659044659045660044661042701042701000000000000042700043700043701044701043703042703042702042701042701044701043703043704043711042711042710041709043709044709044710044711042001000000000000041718043719044719000000044001000000000000000000000000044006044006045007045008044046042047042047043044044044045044046046046047045074043075044073043073044071046072046072045073044075044075044075043075045074045073045074045075043101043102043101043100044100045098044100046101044102043102042102043102043101046101046103046103044108043108043107043106043107045108044108044108044115043115042115042115044113045113044115046117000000000000000000000000043151044151044152044153043178042178043175042174044176046174044176045176044180043180043179000000044180044179045179044181044221042223042222044219044219046220046221046221)
 (.leaf 43268043268043267042266044266045266045267044268043270043269043268043267044267045267044268044269043272043271043270043269043270044269044271044271044272043272043271043270043270044271044271045272045283044282044281044280045280046279046281046283045291044291043291043290044290046289045291046291045397043397043394043393044395045395046396046397045402044402043401043400044400046400045401046402045409043411044409043409044407046407045410046410045415043413044413042413045413046412045414045415045424044426043425042423044424045424000000000000044425042426044426043425045424000000000000045425044438000000000000043436044436045436045437045438044480043482043479000000043479046479046479045480043497000000043496043495044495045495046495046497000000000000000000044514044514045514045515044515044526043526042527043526044526045524045525044527044539043539043538043537044537045537045538045539044575043575043574043573044573045573045574045575044613043613043612044611044611045611045612045613044622042622043621043620044620045620045621044621044709043709042708042707044707045707045708045709000000000000043719043718044718045718046718000000045002044004044003044002045002046002045002047002000000000000000000000000045008046008045009046010046056045056045055044055045053047053046054046055045058045058045058045058046056046056046057046058045065045063045062044063045063046063047064046065045085045086044086044083044083045084046084045085045111044111044110043109045111045110045111047112044136000000000000000000045135047134046136046137045142000000000000000000045140046140046141046142))
 (.node 1 (.leaf 45145043146044144000000000000000000000000046145045159000000000000000000044158045158045159045160000000000000000000000000045185045185046186047187045190045191043191044190046190000000000000000000000000000000000000000000045197000000000000000000045267044267044266044265045265045265045266045267046279045280045279045278046278046279047279046281046285044284045284045283046283047283047284047285045389000000000000000000000000046387047388045390045416045416045416043414046414047414046415045417045437044437044436044435045435046433046436047437046462044460043460000000044458045460046461046462045468043469044467043467044466046466047469046470045475045476043474044475045473046473045475045475045489044489045489045487045487046487046490046491045497045497043497043497046497046497046498000000045514044514044513043512045512046512046513046514045523045524044524044521045521046523045522046523045544044544044543045542046542046542046543047544046555044553045553044553045551045551047553046555045576044576044575044574045574045573046575045575045588044588044587044584045586045586046587046588045592044592044591044590045590046590046591046592046600044601044600044599045599047599046600047601044606043606044606044605045605046605045606045606045613044613044612044611045611046611046612045613045630043629044629044628044628046628045628046628045635043636044634044633044634046633045634046635045661044661045660044659045659047659047660046661045698043700044699043696045696046696046699047699046707045707045707044706045706046706047706047707046048046049046047046047046046048047047049048049)
 (.leaf 46054046052045053046050046050048051047051047052046058045058045057046056046056047056047057048060046065045065045064045063046063047061047062047063046076045076045075045074046074046074047075047076046103044103046103046103046101046101047102047103046121045121046120046120046119047119047120047121046140045140045139045138046138047138047139047140045156044156044155044154047154047155046155046155045164045165044163044162045163046161046163047163046175044176046174045173045173048174047176048177000000045197045196045195046195000000000000000000045266045266045265045264045264046264046265046266046398045398046397046396047396048396047397047398047405046405045404045403046403048403048404048405046424045424045423044422046422048422048422046424000000045430046428045428000000000000000000000000047433045433046431045431046429000000000000000000000000000000000000000000000000046451047453046452047474046473045471046471046472047470047471047472047482046482046482045480047481047480047481046483046515045515045514045513046513047513047514047515046528045528044527044527046528047528047529047530046550045550044549046549046550048549048551047552047559046559045558046556046557047557048558047559045561045562045561045560046560048559048560046561046579045581045580045579046579048578046580047581046594045594045593045592046592047592048593047594045606044606044606045605046605046604047606047607046610045610045609045608046608047608047609047610045620045620045619045618046618047618046618046619046637045637045636045635046635046635047636047637046645045645045644045641046643047643048644047645)))
 (.node 2 (.node 1 (.leaf 46656045654044653044653046654046654047655047656046674045674045673045672046674047674046674047674045680045680045679045678046678046678047679046680046694044695045695045694046692048693046693047696047711046710045709045708046708047708047711048711046712045712045711046710047711048711047711047714000000000000046718045718046718047718048717047718047002047002045002046002000000000000000000048002047012000000045012000000000000048012047012048014000000046037046036000000000000047036047037047037047041047041047040047040047039048039047041047041047055046055046054047053047053048053049055048055047072046072046071046070047070048070047071047073047075046075046074046073046074048073047075047075046083046084046083047082047082047082047082048084047102046100046099045099047100047099047101047101047106045108046105046104047104047105048105049107048125047125046124047123047123048123048124048125047132045134046133047131046130047131048131049133047141046141046140046139047139048139049139048139046150045151045151046150047150047149048149048152047186046186045185047184047184000000048185049185047212000000000000000000000000000000000000048212000000047227046227047226000000000000000000000000046263046262046261046260046261048260047262048262046264045264045263046262046263048262047264047264046265045265045264045263046263047264047264047265046266045266045265045264046264047264047265047266048277046278047276046276047276049276048277049277000000000000000000000000000000000000000000047385047387046387000000000000000000047385048386047387047397046397047396046395047395049395048396049397)
 (.leaf 47398046398046397047396048396048396049397048398048422046422046421046420047420048420048421048422000000000000000000000000047427048427048428048429047483046483047482047481047481047483047483049484047504000000000000000000000000047503047503048504047507046507000000000000047505047505048506049507046515046515045515046515047515048515048516047516046524045522046523046522047522048522048523048524048549046550047548046548047548048546048549048550047557046557046556046555047555049555048556048557047562046562047563045561046561049561049563049563046568046567045567046567047567048565048568048569047587046587045586046585047585047585048586048587047612046612046611046610047610048610048611048612047625046627046624045625046624047625047625048627047636046636046635045634047634048634048635048636047645046645045643046643047643048643048644048645047664045666046665046664046664048662047664049665047700047700047700047699048699048698048699049701047067047065047064047063048065048064048064049065048093046093046093046091048091049091048093049093047099046099047098047097047095049097048097049097048110047112047111047110049109050108049109049110048139047141047140047139048139049139049140050140048167046168047168047167048165048165049168048168048180048180047179046176048178049178049179050179048212047212000000000000000000049210048211048212048258048259048258046257000000000000000000048259048274047274046271046270048272048271048272048274047326000000000000000000047324049325048325048325047328000000000000000000047326048325048327048329000000000000000000000000000000048331048331000000))
 (.node 1 (.leaf 48394047394048393047392048392049392050393049394048396048396047395047394048394049394050395049396048414046415047413047412048412049412049413049414000000000000000000000000048428049428049429000000047446000000000000000000047445048445049446049447047448000000000000000000047446049447048447049447048454047454047453046452048452048452049453050455049461048462047461047458048460048458049461049462048473047471047470048469048469049471049472048471048479047479046478047477047479049477049478049481047503000000000000000000048502049502049503048503048516047516047515047514048514049514049515049516047524046524046524046523048523049523048524048524048533047531048532047531048531048529048531049533048541048541047540047539048539049539048540050541049547047545048545048545048543049545050545049545049572048571048570047568048570050569050569049570048580046580048578047578049578049578050578049578048590048589047589047588048588050588048588049590048595047595047594048593049592049593050593049593049604047604047601048602048602049600050602049604048610047610047609047608049608049608050609049610048615047617047614047613049613050613049614048615047623046623047623046621048622049622048623048623047629046628047628047625048627049625048627049629048632046632047631047630047629049630048630049630048635046635047634047633047634050633050635048635048645047645048644047643048643049643049644049645048652046654046653046652048650049652049653048652048660047660047659046658048658049658049659049660048697048697047696046693048695049695049696049697048706047706047705048702048704049704049705049706)
 (.leaf 48716047718047715048714048714050715049715049718049029049030047029049028049027000000051029051030049037047037047037047036049037000000000000000000050044049045048045048044049044051042050043050044050051049051048050048049050049050049050050050051048072047071048070047069049071050069050070050073048085048085048084047082049083050083049084050085049103048103048102048101048101049102050102050105050127048127049127048125050127050125050126051128049172049172049172049172049170051172051172050172049402048402048401048400049400050400050401050402049415048415048414049413049413050413051415051415049425049425048424048423049423049422050424050425049499048501048500048497049499049497049499049499049516048516048515048514049514050514050515049516049527048529048526048525048525049525049526049528049537048537048536048535049535050535049537050537049563049563049563049563050563050561050562050563049599049598048598049597049597050597051597051598048623047623047622048622049622051620050621050622049660048660048659048658049658050658050659050660049673048675048672049671049671050671050672050673048679048678048677047678049678050678049678049678049682048682048681047680049680049681050681051683049687048687048686048685049687050687050688051688049696049696048695048694050693049694049694050696050068049070049069050067050066051066051067051068050086049088048087049086049085051084050085052087050092048093049091049090050090052092051091052092049102048101048101048100050101050101051102051103050136050136049135049134049135051136051137051138050150049150049149049148050148050148051149050148)))))
 (.node 8 (.node 4 (.node 2 (.node 1 (.leaf 50173050174049172049171051172052173051172052174051181050180050179049179050179051179052180000000051220048220049218050217050217050218050219050219050259050259048259000000000000000000000000051259051276049277049276048275050275051275051276051277050316048317049315000000000000000000051315052317050384049384000000000000050382051382051383051384050393050393049392050391051391052391051392052393050416049416049415049414051415051414051415051416049464048464048464049463050463052463052463051465050472049474048471049472050472051472052473052473050489049489050487049487050487051485052488050488050494049494049493049492050492051492051495050495050505049505048503049503050503051503051504050505050509050510049510049507049507051507051510050511050514049514049513049512050512051512051513050514050522050521050520049518050520000000051521051522051570050569050569049569050567052568051570052571050576049576049575049574050574052572051573051574050613050613049612049611050611050611051612051613050633050633048632049633050631051631051632051633050641049639050639049637050639050637050638051641051051050051050050050049050051051051051051053052050062050061050060050059051061051059051061051061051082049084050083051080051080052080052081051082051117050117049118050117050116051116052116051117052128050128051128050126052126053126053127052128051132051133050133051130051130052130053131052132051140050138050137050136051138052138052139051139052193000000000000051192051193000000000000000000000000000000000000051208000000000000000000000000051223050223049222050221052222000000000000000000)
 (.leaf 51268049268049267049266051266051267051268051268051277051276050276050275051275053274052276000000051318050318050317050316052317000000000000000000051320050320051319050318051318000000000000052320051382050382000000000000000000000000000000052382051394051393050393050392051392052392053393053394051408000000000000000000000000052406051407051408051417050417050416051415051415053416053418053418052426050426050425050424051424052424051424052426000000000000000000000000000000052428051430052430051458050458050457050456050456051457053458052458051477050477051476050475051475052475051477051478052482051482050483051481051482051481052483052484051483050483051482050483052482052483052484053485051506049506050505049504051504052504052505051506051528051529049528049526052526052526052527052528051591049591050590050589051589053588053590053591051610049609050609050608051608052608052609052610051620051620050621051620052619053618053619053620051635050637050634050633051633052633052634052635050659050660050659050658051658051657053659051659051663049663049663049662050662051662052664051664051674049675050673050672051674052672051674052674051683049683051683050681050682051681052684051684051690051689051688050688051688052688051689053689052046052046050047051046052044052045052047052047052053051053051052051051053052053051053052053053051058051059051058051055052057052055052057053057053078051078051077051076052076053074053077053078052086052087050085051084052084052085052085053086052094051094050093052092052092053092053093053094051103051105051104051103051103052103053104052104))
 (.node 1 (.leaf 51110051110051109051108052108052108054109052110052113051115052113051113052111052111053112053113053124051125050124052122052123053123053124053125052132051132051131051130052130054131053131053132052141051141051140051139052139054138054139054140052149051149050148051147052147052146053148053149052164052164050162051160052162052162053163054163053393052393051392052391053391053391053392054393053399052399051398052397053397000000000000000000000000000000000000000000000000000000052405052405052406000000000000000000000000052405052405052406052455051457051456051453051453052455052455053455052468051468050467050466051467052468052468053468052499052500051498051497052497052497053498052500051506050507051506050505052505054505054505054506052512051512050511051510052510052509052510052512052521051523051522051521052521052520053520053523052530051530051529051528052528053528053531052530051564051563051562051561052561054562053564052563052572052572051573052571052570053570053571053572052584052585051585052583053584054583053585054586053623051623052623052622052621053621053622053623052635051635051634051633052633053633054634053635051643051644051643051642052642053642053643052644052651051651051650051649052651052651054652054652052680050678050678050678051677052678052678054679051702050702050702050701052701053699052701052701052717000000000000051715052715052714052715053717053053052053053052053052053051053051054052053053053096052096052095052094053094054094054095055097053129053130052128053127054127055129055129055129053259053260052258000000000000000000000000000000)
 (.leaf 53263051263053263053261054261055262055263054263000000000000052276053274053275000000000000000000053380000000000000000000000000053379054379053380053389053389052388053386053387054387054388054389000000000000000000000000000000000000054402053403054415053416053414052414054413054412054413055415053421053422052422053420053419054419054420054421053430052430051430052428052429054430055431055431052443051443053443052442053442054442053442054442052455051453051453053452052451054453053453054455053461052463053461052461052459054461055461054461053516051517051516052516052515053515053515053516053539052539053538052537054538055537054538054539053543052543052542052541053541055542055543055543053552051550051550051549053550053550054549053551052569052569052568052567053569053568055570054571052600052601052600052599053597054597053599053599052612051612052611052610053610053609054609053612052614052614051614051614053614054614054615053615053615052615052614051614052614054615053615053615052644051643053643052642053642053641053643053643053647052647051646051645053645053646053648053648054658051657051657052656053656055655054655054656052672052672052671051670052671054672053672053672053705051704052702051702052701054703053703054705054052053052053051054050054050054051054052054052054064053064054065053062054062055062054065054065054070052072054070054069055069056069055069055070054076053078053077053074053075055076054077055078054093053093053092052092054091054091055092055093054112052111053111052110054110055110055111055112054119053121053118052118054117055117055118054120)))
 (.node 2 (.node 1 (.leaf 54126053126053125053124054124054123056124056124054134054135054133053132054132056133056133056135054274054273054272053272054272056272056272054273054376000000000000000000000000055374055377056378054390053390053389053388054388055388055389056390054412054413054412054412054412056411055411056413055427053427053426054424054425055425056425055427054462053462053461054461055461055460056462055464054475054477054474052474054473054473054474056475053590053590053589053588053587055588054588055588054596052597053597053596054594054594055595055596054634054634053633053632054632055632055633055634053648053646053645052644054646054645054646054647054654054653054652054652054652055652054652055654054662054661054660053660054660055660055661054661053668052668052668053668054666054666054668054668055685054683054683054682054683055681055682055683054693054692053690054691054691000000055690055691054696053696053695054694055694055694055695055696054709052710052709053709054709055709055710000000055069055069054068054065054065056067055067056069054080054079053079055078055079055079055079055080055083054083054082054081055081057082055083056083056097054097055097054095055095056095056096056097055105055104055104055103055103056103057103056105055113054113054112054111055111056111056112055113055142054142054141054140055140056140056141056142055149053148054146055146055147056145056146056149054154054155055154054151055153056153055154055154055158053157053156053156055156055155056157055157055171054171055169055169056168056169057170056171055262055263055262054260000000000000000000056262)
 (.leaf 55267055268055267055265056266057266057267057268055372000000000000000000000000056370056371056372055389054389054388054387055387057387056388055388055436054436055433054432055434056432056433056434055439053438055436055436055437057437055437055438055440054442054439053438054439056438056439055441055483054483055481054481055481055481057482055483055490054490053488054488055488056488055488056488056508055508055507055506055507057506057507057508055514053515053515055513056512056512056513055514055522054522055522055521055522057520056521057522055532054534054533053531055532056532055532056532055555054557054556055554056554056553056554056555055564053565054563055563054562056562056563056564056609053608055608053606055607057606055608057609054619053619053617053617055618055618056619055619055620054620054619053619054619055619056619055620054627053627054627053626055626055626056627055628055637055637054636054635055635056635057636056637055681054683055681055681055681000000056680056681055695054695055694054693055693056693056694056695056030055030055029000000056028000000057029057030056059056058056058056057056057058056000000000000056061054062055060055059056059000000057060057061056091054091055090055089056089056090057090057093056097056097055096055095056095057095058098058099056146055148055147055144056144056145057147056147056166055166056165054163056164057164058165057166056169056168055168056167056167057167057168057169056204056205000000000000000000000000000000058205056263056264055262055261000000000000000000000000000000000000000000054273056274000000000000000000))
 (.node 1 (.leaf 56371000000000000000000000000000000057370057371057380055380054378056378056378057378058379057380057382055381056381055381056381058381058381058383056402055402000000000000000000000000000000057402056421055421056422055421057421058421058421000000056428055428055427056425056426058425057425058427057431056432056431056431057431057429057430057431057472054472055472055469056469056469056471057471056475056475054474054473056473058473057474057475057497055496056496056496055494056494056495057496057503056502055500056501057499057499057500057501056518056518056518055516057516057516057517057518057524056524056523055522057522057522057523057524056526055526055525056524057524057524057525057526056565055565055564055563056563057563057566056565056573055573054571055571056571057571057572057573056595055595054594055595055595057593057594056596056600056600056600054598056600057600057601058602056654055654054652055652056652058651058652056654055661055661054661055661056661057659056661057661055666054666054666055664056666056665057665056667056694055694055693055692056692058693058694057694000000056707055707055706056706000000000000000000000000055709056707055707000000000000000000000000056045056045056044056043057045057045059045057045057049056049056048056047056047058047059048058049000000056058056057056056057056000000000000000000057075056077057074057074057073057074058074057076057081057082056080055080056080059080058082057082057101056103057101057100057101059100059101058103056109056109056108056107057107057107059108058109057136056136056135056134057134057134058135058136)
 (.leaf 57164056164056163056162057162058162058163059164057211056211055210056209057209058211058212059213057270056270057270057269000000000000000000058272057373056373056372056371057371058371058372057373058386057387056386056385057385059383059386058387058389055388056388057387058386058387058388058389057407057408057407057406057405057405058406057407057415056413057413057411058413059412059413000000057425056427056426057423057425000000059425059425056438055438055437057437057437058435057437058437057447055448057447055445057445057445058446059448056495056497055494055493057495058495057495058497057527056527056526057525057525059526059526059527057539055538057536056537057537058537058538058539057555056555056554056553057553057553058554058555057574056574056573055570057572058572058573059574058587056585055585056585057585059585058586058587056630055631056630056629057629058629058630057630057634057635056633056632056632058632058633059635057636057636056635057635057634059635058635059637057641056643057641057641057641058641059641059642057659056661055660056659057659057658058658057661057698056698057698056696057698000000000000059699058032057032058032057030058030059030059031060033058049057049057048056047058047059047059050060050058084058085058084057082058084059084060084059084057089056090056087056087058088058087059087059090059095057094058094056092058094058092059093059094059101058101057101058100058100059100059101059102059105058104058103057101058103060103060103060104057120056118056118057116058118058117058117059118058142057142056141057140058140059140060142060142))))
 (.node 4 (.node 2 (.node 1 (.leaf 58151057151057150056148058149060147059150060150058161057161057158056158058159059159058159058161058205057205058205000000000000000000059204059205058370057370000000000000000000000000000000000000058390058389058389057388058388060386060389059390058444056445057445058444058444058444058445059446057460057460057457057456059456059456059459058458058461057461056461057461057460060461058461058461059474058473058473057471059471060472060472059473058476058477057475057474059474059474059475058476059482057483058481057481058481060481060481060483059485058486058484058484058484059482060485060486058487058489057486058486058487060486059488059489059491058491058490057490059489059490059491060492057512057511057510057509058511059511058511059511058535057535058533058532058533059531058533059535058547058547057546057545057546058545060547059549058563057563057562057561058561059561059562059563058577056578057578057575058575059575059576058578058593057593058593057593059593060593059594060594058614057614057613057612057612058612060613060614058630057630057629057628058628059628059629059630059646058646058645058645058645060645060646060646000000000000000000000000000000059686058686060688058693058694058693058692058691000000000000000000000000058700058700057698059699000000000000000000059050058050058049059048059050060048060049060050060092057091057091058089059091060091059091060091059112059111059111059110059110060110060111060112058124058125058124057122059123060121060122060123059129057130057129057128059129059128060128060131058134057134058133057133058132060134059134059135)
 (.leaf 59155058157058156059153059155060155059155060157059208059209058207059206059206059206060207059209060215058215058214059213059213061212060214060215059218059216059216059216059216060216060217060218000000000000000000059219059220060220000000000000059371058371058370000000000000000000000000000000060380059380059379058378059378060378061378061379060380059380059380059379060379061378061379000000060382058382059380059380060380061379000000000000059426058426059425059425059424059424060425060426060436058435059434059434059435059434059435061436059440059441059441058438060439061440061441061441058452058452057453058452060451059452059452061453059468059467058465059465059466060466059467060468059502057503057502057502059502060500060501059502059511058511057510058507059507059508059509059509059529058531059528059527059527060527061530061530058554057553057553057553059553060553059553060555059570058570058567059566059566060566060567059568059574059574058573058572059572060570060573059574059585059585058584059582059583060583060584060585059608058608058607058606058606059606059606060606060648059647059646059644060646061645061646061648060648058649059647059646060646061646061648061648060649059650059649058649060648061648061649060651059652059650059650059649060649061649060651060652060656059656059654059653059654060654060655060656059668059667059666058666059666060664060667060668000000059670059670059668059669000000000000000000060036059036059035000000000000000000000000061036061045060045059045060043060044061044062043061044000000060080060080060079000000000000000000000000))
 (.node 1 (.leaf 60095059095059094059093060095061093061094060095060103060103059102059101060101061101060101061101060121059123059122058121060119060119062122062123060142060142060142059140060140061140061141061142060159059159059158059155060157061157060157060159061379060380060379059378060378061378062379000000061394059394059393059392060392061392061393061394060425059425059424059423059424061423061424060426059434059435059434059433060433061433061434061435059472059472059471059470060470061470061471061472060483060483060481060481060481061481061482061483060493059493060492059491060491060490061492061493060519059519059518059517059517062519060518061519060540059540059539059538060538061538061539060539060541058539059540059539059538061539060539061539059561059561059560059559061560061559062561060561060584059584059583059582060582060582060583061584061645060646060645059644060644061644000000000000060655059655059654059653060653000000000000000000000000059658060658060658061658000000000000000000060662060663059663060661060660000000000000000000061150061151061149060150061148062148061150062152061170060170060169059168061168062168062169061170061209060209059209060207061207062207062208061209060214060215060214061212061213062211062214062215000000000000000000060220061220062220000000000000062386061386061385060385062385062385063384062385061387061388061387061386062386062385062386062387061394061394061393060392061392063392062393062394061433060433061432060431061431062431062432062433061447061448060446060445061447063447063447062449061458059458060455061455061456062456063457062458)
 (.leaf 61462060462060461061461062460062460063462061462061465059467060466060465061463061464061465061466061483060483061482060481061481062481062482062483061493060495060494060493061493062493061493062495061508059509059508060506061506062506062507061509062525061525061525060523062523062523062524062525061547061548061548060547062546062545063546063548061568059568060567060566060566062566061568062568060588060589059587060587061585062585061587062587061595060595060594059592061593062593062594062595060598060599059598060597061597062597061598061598061609060607060606059606061607062607062608062609062621061620061619059619061619062619062620062621061638061639060639060636062636062636062639063640000000061039062039061037000000000000000000000000062047061047061046062045062045063045063046063047062094061094061093062093062092063092063093063096061104061104060105061104062104064102063103063106062105060106061104060105061104063103063106062105062121060119062119060117062119063117062119063119063128060127060126061125062127063127063128063129062143061143061142061141062141062142062143062144062162062161062161061160062160063160064161064162061209061209061208061207062207063207062209063209062229061229061228000000000000062227063228062229063392061392061391061390062390062390062390062391062416060416000000000000061416062414063415062417062419062420061420061417062417062418063420063421062452062453061453060450063450064451064451064452062472061472061471061470062470063470062470064470062474061474061473061472062472063472063473063474062483061483061482061481062481063481063482063483)))
 (.node 2 (.node 1 (.leaf 62497060497061496061493062495062495063496062497062499060500062498060498061497063497063498062499062506061506060506061506062504063506062506062508063550061550062550061548062550063548063549063550062554062554062554061554062552062553063553063554061584060585061584060583061583063583062583062584061599060600061600060598061598062599062599062599063642062643061642061641062641062641000000000000062679000000000000000000000000062678063678063679063045062045000000000000000000000000064044064045063114062114062113061111063112064112063112064114063117062119062118061115062115063116064116063118063133062133062132062131062131063131064130064131063169062169062168062167063167064167064168064169062226000000000000000000000000064224063225063226000000000000000000000000063234063234064235000000000000063376063375063374000000000000000000000000063408062408062407000000000000000000000000064408062414061416062415062414063414064412064415063415062422062423062420062419063421064419064422063423063428061430063428062426062426064428063428065429063431062433062432062431063431064431063431064431063465061466061465061464063463063464063465063465063484062484062483062482063482064482064483064484063513061514061513062513062513063512063512063513063543062543062540062539063539063540063540063541062544062543061543062543063543063541064542063543063575063575061573063573063573065573064574063575063578063578061576062576063576064576063577064576063609061610062610062609062608064607063608064609063629062629062628062627062626063627063627063629063678000000000000000000000000063676064677063679)
 (.leaf 64092063092064092000000000000000000000000000000064102064102062102064101064100064100064103066103063116062115062115062114063114064115065116065117063123062123064123063120064122064122066123065124063148062148062148063147063147065147064147065149063153063153062151062151064151064151065152065153063163063163064162064161064161065161066161065163000000000000063174063173064173064173065174000000064214063214063213063212064212064212064212065212064411063413063412063409064409065409065412064412064458063456064457064455064456064456064456065458064485063485063484063483064483064483066484065485064506062508062506063506064504064505065505065506063521062522063521063520064520064519065521064521063525063524062524062524064524064524064524064525064534064534064533062533064532065532066533065534064558062559063557063556065556065556065557064559064561063563063560063559064559065559064561064561063582062580063579062579064578065578064580065580063584062584062583063583064583064582065584064585064607062608063608063607064607064607065608064607064634064634063633063632064632065634064634065636064677062678000000000000063676064676064677064677000000000000000000000000064684065684065685000000066110065109063107065108066108066108066109066110065154063153063153064152065152066152065152067153000000000000000000000000000000066179065179000000064219064219065218064217065217066217065218065218000000000000000000064235065235066235066236000000000000000000064393063391065392067391000000000000064403000000000000000000000000000000066402065403065417064419064416064415064416065416065417067417))
 (.node 1 (.leaf 64424063423063423064422064422065422065422067423065436063435065435064432065434066434065435066434065474065474064473063473064473065473066473067475065478063480064477063477065476066476067478065478065509063511064508064507065507065507065508066509065523064521063521063521065521065520065522065523065549064549064548063548065549066547066550065549064585063584064584064583064582066583065583065583064597064599064596063596065597065597065597067598064620064621064620064619065619066619066620065621000000000000000000000000065685066685000000000000066097066098065096066096066095000000000000067097067117065117065116064115066115067115067116067117066118066118066118066118066118067118067119067120065125064125065125065124066124067122067125066125067143066141066141065141066139067141068142068142067169064169064169065168066168067168067169067170066210064212065211065210066208067208067209067210065218064219065218065217066217066216066217066217065225065225064225064224066223067223066225067225066227064227064226065225065225067225066227066227000000000000065236065235066235067235067236000000066385066385066384000000000000000000000000067385066427065429064428066426066427067425067428067429066462066462066462065462067462067462068462067462066488066488066487064486066486067486067487067488065507065506065505064505066506067506067507066508066515064517064515064514066513068513067514067515065528064527064527064527065525066527066528067527066536065536065535065534066534066534067535067536066542065542064542065540065541066541067541066543066571065569066569065567066567067567066569067571)
 (.leaf 66611064613065612065611066611066610067610067613065622065621064621064620065621066621067622067623065623065623065622065621065622067623066623066624066627065629066628065625065626066626067626066628066630064631064630065630065629066628066630067630066674064676064673000000065673067672066673066674067102066104067103066102068102068102069101069104067105067106065106067105068104069104068104068107067132065130067131065129067130067129067130068132067138066138066137065136066137068138067138067138067208066208066207000000067206068206068207068208067222066222066221065221066221068222067221068222000000000000066236066235067235068235068236068237067456067456066455067455068456068456068457068458067478065478067478066476066476068476068477067479067486066486066485066484067484068484067485068486067495065494065493065493066492067492067493068495066508065507066507066506067506068506000000068508067516066516066515066514067514068514068515068516066555065554065553066551067553067552068552068555066569066570066567065567066567068568067568068568067583065583065583066583068581068583067583068583067590066588065587065587067588067588069588068590067596065597065597066596068595068594069595068596066616066616066615065613067614068614068615067616068112067112067111067110068110069110069111069112067119067119067118067117067117068117068117068117068145067143068143068142068143068142069144068144068163067163066162067161068159068161068161069163068172066172067171067170068170069170068171068172068177066178068177066176068175069177068177069177068213068214068213066211068211069211069212069213))))))))))
 (.node 256 (.node 128 (.node 64 (.node 32 (.node 16 (.node 8 (.node 4 (.node 2 (.node 1 (.leaf 67230066230067228066227068227069229068229068230000000000000000000000000068237069237069238000000068423067423068422068422069421069421069422069423069436068435066434068433068434070434069435069436069440067441067440068439068439070438069440070441068486067486067485067484068484069484069485069486068498066497067497067496068496069496068496069498000000067507067506067505068505069505000000068507068520067520068520067518068518070518069519069520067535067535066534066534067535069535068535068535067552067553067550067549067550068551068551068551068555066556066556066555068555068554068555069555069616067617066616067615068615070614069614070616068671066672000000000000000000000000000000069671068112068112067111068112069112071111071113069113069113067114068112067111068112071113069113070113068124067124068123068122069122069121069123069123069125068127068124067125069123069123069125070125069130067129068129069127069128070126069129071130069146068148068147068146069144070144069147069147069150068150068149068148069146069147069148069149069216067218068215068214069214070214070215070216069238068238068237068236069236070236070237070238068452067452068452068451069451070451070452070453068457068458068457068456069456070456069456071457068468068466068465068464068466069464069466069466069475067475068474068473069473070473070474069476069477068477068476067475069475069476070476069479069485067485068484068483069483071482071483070485068507000000068506068505069505070505069506069506069520068520068519068518070518070518070519070520069541068539068538067539068538070539069539070541)
 (.leaf 69550068548067548067546069546069548070547070548068575067575068575069573069574069573069574070574068588067588068587068586069586071584069586070586069594068594068593069592069592069593070593069594068605068605067604068605069605070605069605071606069609068609069609069607069609069609070610070611069672068672068671000000000000000000070671070672070107068105069104069103071103071103071106070105070107070109069108068105070107070105071108072109071111069111069110070109070107072109070108071109069123069123068124069123069123070123070124071125070137069137070137070136070135071137071138071139070144069144068142069142070142071142071143071144070155070154069154068153070153071153072154072154070162068161068161069160070160072159072159071162070169068169069168068166070165071167070167071169070202000000000000000000000000000000071201071202070214069214069213069212069212072213071213071214070221068223069222068221069221070220071220070221070237069237069236069235070235071235071236071237070402069402000000000000070400071402070402070404071413069414069411070411070410072411070412070412070425070426070425069423070423072424072424072427071432069432070430070430070430070430072430071432070453068452068452069451070451070450071452071453070473069473069472070472070471070472071472070473070520069520069519070518070518071518071519071520070531069531068531069529070531072530071532070532070581070582068581069579070579072579071580071581069599069600069599069598070598070598071599070600069601068602068601069601070601070600071602072601070620070621070621070619070618070618071619071620))
 (.node 1 (.leaf 70628069626070626070626071625071626071627071628070671069671000000000000000000000000000000071671069678068679068678069677070677070676071678072678071131070133069132069131070131071131072132072133070177070178069177069176071176071175072175072178071202070202000000000000000000000000072201072202071209071209069208070207071207072207072208072209071214070214070213069212072213072212072213072214071231070233069230070229072230072231073232071231072238069239070238070237071237072237072238072239071417069418070418071416071417073417073418072417071433070431071432070431072430072431071431071432071447070449070446070445071445072447071447072447071459071460071459070457072457072459073460073460071483071482070482070481071481072481072482072483071496070496070495069493071494000000071495071495000000069500069499069498071499071498071499071500071511070511071510071510000000072509000000072511071518070518070517070516071516072516073517072518071543069543069543069543070541071542072542072543071547070547069548070545072546072545072546072547070561069561069560070558071560071560071561072562070590070590070589070586071588072588072589071590071627070627071625071625071625071624071626071626071671070671000000000000000000000000000000072671072110070108072109071108072108073108073109072110072118070120071117071116071116072116074117072118072127071127070125071125072125072125073126072127072130071130071129071128072128072127073129072130072159072159072159071159073159073159073160073161072170071170070171071170072170073170073171073172072183070183070181071181072181073181072182074182)
 (.leaf 71185071185072184070183072183074182074183073185072191070191072190070189072189073189073190074191000000000000000000071195072195073195000000000000072217072217071216071215072215072216072217072217072229071229071228071227072227073227072227073229000000000000000000000000072388072388072389072389072412070412070412072411072410072410074411072412072422072423072421072421073422074421073421074422071432070434071433071432071431072432072432072432072439071439070437072437072437073437074438074438071443070443070443071441071441073443072443073443073462071462072462072460073460073460073461073462072464070466071463071462073462073462073463074464071471070471071470070467072469072468073468073471071485071485071484071483072483073483073484073485072518071518072517071516072516073516074519074519072536072537071535071534072534073534072535073536072550070552071549071548072548073550074550074551072559070558070558070556072557072556072557073559072572071572072571070571071570073572072572074573073604072604072601071602072602073602073603073604072613072612072612072610072611074611074611073611072671071671000000000000000000000000000000000000000000000000000000072678072679000000000000000000074115073114072114072113073113073113074114074115073164072164071163072164072164073163073163074164073174072172072171072170073172074170073172073173073202072202072201000000000000000000000000074202073206072206072205072204073204074204073206075207073212072212072211072210073210074210073212074212073222072222071221071221072222074220075222073223073343073344073343071341073341074341074342075344)))
 (.node 2 (.node 1 (.leaf 74360000000000000072358073358073358074359074360073394073396072395073393073392074392074393073395073405072405073405073404073403074403074404073405073450071451072451072448073450074448073450074450074477072475073475071473074473075473075475075475073485071485072484072483073483073483074484074485073506000000000000072504072503073504073505074506073520072520072519072518074519000000074519074520073532073533072533072530072530075530074531074532073578072578073577072576073576074576075577074578073585072583073583073583073583074583074584073585073592073592072591071592074591074592075592075593073599072597073596072597073597075596073598074599073607072607072606073604072605074605073605074605073615073616072614073613074615074615075616074617073626071627071626071626072625074624074625073626072634000000000000073632073633075633074632074635074106073108073107074105075105000000000000075106073130072130073129072127074128075128075129074129074137073137073136072134074135076134075136074137074153073153072152073151074151074150075152074152074169073171073170072169074167075167075168075169074176072178072177073176074176074175074176075178074182072182073181072179074180075180075181074182074202073202073201000000000000000000000000075202074208073208073207073206075207075206075207075208074230073232072231072230074230076229074230074231073244072245073244073243074243075241075244076244000000000000000000073248074248075248000000000000000000000000000000074360074360075360074360074360074379072379072379073377073377075377074379074380074423073423074422073421075422076421076423076423)
 (.leaf 74427074427074426073425075426076426075426075427074439074440074439074438074437076438075438074439074465072465074464073463074463075463074465074465075478074477074477074477075475076476076477075477074540073540072537073536074536075538074538074539074554074554074553074552074552075552075553075554073560073561072559073559074559074559074559075559074565074565073564072563074563074562074563075565074620073620074620073620074618076618075619075620074632072633073633073632074632074632075633074634074674073674074674073672074672075672075673075676075106074106075105075105000000000000000000076106075115074115074114073113075113075113076114076115075131073130073130074129075129076129076130075131075133074133075132073130075131075131075131076133074140000000073139074139074138076139075139075140076154074154074153073152075152076152075152077154075160074160074159074158075158075157076159076160075194074194074193074192075192076192075193076194075214075215074213074212075212077213077214077215075239074237073237073237075237077236077238077238000000000000000000074248075248000000000000000000075374074374073374074372075372076372076373076374075387073388074386075386075385076385076386075388075399074397073396074395075395076395075397075397076438075437074437075436075436075435075436076438075444075445073444073443074442077443077444077444074447074447075447074445076446076445076446077449075459074459073458074457076457075458076458076459075485074485074484073483075483076483075483077484074491073490073490074489075489076489075489075489075554074554074553074552075552077553075553076554))
 (.node 1 (.leaf 75580075581075579074578075578075579076579076580074598074599073598075596074597076597075597075599074606073605074605074604076602075604076603076606075609073609074608074605075607076607075607076609075625074625074624074623076624077625077625077625074640074639073639074639075639076639076640075640076119076119076119074117076119077117078119078120075145075145075144076142076143078143077144076145075157075158075157075156076156077156077157078157075169075168075167075166076166077166077167076168076171074171075170075169075169077169077170078172076182074182075181075180076180077180077181077182076204075204075203075202076202077202077203077204076223076222076221076221076221078221077222078222077225076224076222076222076223078222077222078224077238075238075237076236076236078235078236078236077243075244075241076241076242077242000000000000076357075355076355076354000000077353076354078356075379074379075377074378076376076378077379076378075402075401075400075399076401076400076402077403075412075412075411075408076410076409076410076412076432075434074431075430076430077430077431076433076449076450075448074447077449078448078449077449076458075458076457075456076456078456077457076458076474076475076474076473076472077472077473077474076507074506075506075505076505076504076505077507075509074508074508074508076508076507076509076509076511075511074508074508075509076509076509077511075524075522000000075522076520077520076522077522076527075527074527075527076525076525076527077527076566075566075565074563076564078563077565076565076582075582075581075580076580077580077581077584)
 (.leaf 76619075619076618076618076617077617078618077619076626075626075625076624077625078624077625076626000000000000000000075646076646076645000000000000077125077125076124075123078124079124079126077126077133076133075131075131077131078131078132078133076179076179076178077176077177079175078178077179000000000000075197075197077197078197077198077198077214077215077214077213078212077213079214079215078227077228077227077227078226079226079227079228078231076232075231077229077230079229079230079231078233076234077232076232078231079231079232079233000000076244077244077243000000000000000000000000077361076361076360077359077359000000000000000000077405075406076404076403077403078403078406077406076409075408075407075406077405077406078408077407076413075413075412076411076410077411078412077412078420077421077420076419077419078419077420079421077440076440077440076438078439079440078439079441077483077484075483076483076483077483077483079485076504076505076504076503077501078501078502077503077512076512076511075509076509077510078509078512076543076543077542076541077541077541077541077542077557077557076556077555077555079556078558077558076594077593075594076593077591078591079593078593076631076631076628076627078627077629077629078631078635077634077633075632077633077632078634078635000000078110078108078106000000079106000000000000078121078121077120078120078119079119080120078122078151078151078150077149078149000000078149078150078163077165077162076163077162079163078163078163078182077182077181077180077179078180078180078181078190077190076188076188078188079188079189079190))))
 (.node 4 (.node 2 (.node 1 (.leaf 77200077200000000000000078200078199078200078201078208077208077207077206078206080206080207078208079218078218078217078217079216080216080217080218079222078222077222078221078221080219080222080223079225078224078224077222079222080223080223080225079227078227078226078224079225080225000000000000079236078236078235077235079234000000000000000000077368077367000000000000078367078366078366079369078395076396077394077393077394078395079396078395078412076413076413076412078412078410079413078413079421078420077420077419078419078419079420078420079430078429077428077427079428080427080429079429078473077473077472076471078471079471078473078473078478077478077477077476078478079478078478079480078489077489078489076489079488080487079488080489078495077495077494077493077494079495078495079497077514000000000000077513077513079513078513078514078524076525077523077522077523079522079523079524078535077535076535076534078533079533079534079535079556077555077554077553077553079555078555079557078583077581077580077579078579079581078581078582077584077585077584077581078583078582079582080583078611078611078611077611079610080610079610080611078618078618077617077616078616079616080617079618079144078144078143078142079142079142079143080144079177077179078178079175079175079175080176079178079191077191078190078189079189080189079190079191000000079238079238079237000000000000000000000000078388077387078386077385079387080387080388079388079389077390078388077387078388079388080388080389079402079402079401077399079400079399079401079401079417077417078414077413078415080415079415081416)
 (.leaf 79429079430079428079428080427081427081428080429079452079452078451079451080450080452081452081453080458077457079456079455080456081456080457081458079470077470078469078468080469081469081470079471079491079491078490078489080489000000080490079491079500078500079499078498078499080498079500079501000000077516000000077514078514080515079515079516079532078532078531077528079530080528079530080530079535078535077535078533079533080533080534079536079547078547079546079545079545079545079546080547078569079568079567078567079567081567080566080569079592079593078591077591000000079591080591080592078598077599078598078597079597080597079598079598079601079601078600079599079599080599081600081601080610079610079609079608080608081607081609081609080610079610079610079609080609081609081609081610079623078623078622079621080621080621079623079624079636078638077636078636079634079635079636079637079639078639079639078639079639080637081640000000080117080117079116080115081114081113081114081115080128079128080128078127080128081126081129082129080136079136080135079134080134080134081135081136079147079148079147079146080146081146080146082148081156080157079156079155080155081155082156081157080159080158080158080157081156081157081158081159080183080183080183080182080183082183082183082184079194079195079194079191080193081193080193080195080209080209078208080207080207080208081208080210081220080219080218080217081217082216080219081220080369078370078370079369080367081367081368080369080380080381079379080379080378081378082381080381080388079388078388079388080388081388080388081388))
 (.node 1 (.leaf 80405079405079404078404080405080404081404081407080423080422080422078420080421081421082421080423081427080425079426080425081424081425081426082427080432080433080432080430080432081430081431081434081436080435080435079433080433082435082435082436080448080449079447079446081447082447081447082449081458080458079457080456081456081456000000081458080498078499079497000000079497081498080498080499080508078509078508079506080506081506080508081508079522079521079520079519080521080519080521080521080553079555079554079551080551081553000000080553080559079557080557079557079557081555081558000000079563079563078562080561081561081561081562081563080573079573078573078572079572080572081572080573081609080609080608080607081607082606082607081609080631079629080629080627081627082628081628081631082124081124081124081122081123083122083123082123081138080138080137080136081136083135083137082138081155080155080154081152081153083152082154083154080196080196079194079193080193081193081194081195080196079196080196079194080195081194081195081196080197079197079196080196080196081195081196081197080204080205080202079202080201082201081203081205082215081215081214081213082214082214082215083216082222080222081220081220081220083220082221000000081243000000000000000000000000000000083242081245000000000000000000000000000000082250081250082252081366080366081365080364081364082364082365082366080373079374080373080372081372081370081372082372081377079377080376080375080376081376081378081378081396079398079396080396082394083395083396083397082410081410079408079408081409081409082410082411)
 (.leaf 81429080429081428081427082428082429083430083430081453080455081453081452081453082453000000083455082461081461081460081460082460083459000000083461082462081463081461081460082460000000083461083462081466080466081466081464081464082464082465082466081470079471081470081469082469082468082469082470081482080480081480080480081480082480082481082482082484081484081484080484082483082484083484083485081490080490000000080488081488082488081490081490081505079506080504080503080503082503082504083506080519080521079518079518080517081519081519082519081531080531080530079530080529082529083530082533080572079572080572079571080571081570082572081571080588080589079588081586081587082587082588000000000000080596081595080592081594082594081595081595081601081601081600080599081599082599082600081602081617080617080616080615081615081614081615082615081626080626081626080624080624083626082627082628081635079636079635080633081633083633082634081636082120081122082120082120083119084120084120083120083146080146081146082145083145083145083146083147082165081165081164082163081162083161083162083165082199080201082199081197081197082198084200082200083216082215081215082214082214084213084214082215082250000000080248080248082248083246082249084249082367081367081366081365082365083365083366083367082382080381082381081378082378083380082380082381083395082394082394082393083393083394084394084396083419082418081416082417083416084417084417083419083446081447082444082444082445084444084445084445083506081505081504080503082503083503082505083505081540081541082540082539081538083539082539082539)))
 (.node 2 (.node 1 (.leaf 82549082550082549081547082547083547082548083549082558081558081555081554082556083554082556082557082566081566081565081564082564082564083565082565082583081583081582081581082581082581083582082582082588081590080588081588082588083588083589082590082598081596080595000000081595082595082596083596082599081597081596080595081595082596083596082597082612081612081611081610082610084610084611083612082627082626080624082625083623084624083626083627000000000000000000081640082640000000000000000000083138082138083137083135083136084136084137084138083168081169082167081166084167084166084167084168083172082172082171082170083170084170083172083173083176082176082175082174083174083174083176085178084183083182082180083180083181084181084182084183084187082187083187083186084186085187085187085188083206083206082205081205082205084204085205085206084213082214083212083211083212084212084213084214000000083227082225000000083226083226083226084228083366082366082365082364082365084364083366083366084397082397083397083396084396084397084398085398083406081408081407082404083404083404084405084406084414082414082413082412083412085412085413085414082431082431082430083430084430085430084430083431083469082469082468082467083467084467084468084469083473083474081472083471083471084471084472084473083487082487000000083486000000083486083486084487083497083495083495082495084495085494085495085495082527082527082526083525083525084525083526083526083549082549082548082547083547083547084548084549083560081561082561081560083560083560083560083562083599082599081599082599082597083597083598084599)
 (.leaf 84131083131084131083131085131084129085130085131085163083162083161000000084162085162086162086164085205082205082205083203084203086204084205085205084355084356082355084355000000000000000000085355084359084359083360084358085358085357085358085359083380082380083380083379084377084377084379084381083388083388082386083386083385085386084386085388084428084426084426083424085425086425085425086427085463084463084462084461085461000000000000000000085518084518084517084517084517086516085518086518084519083519082519084518085518086518086518086520083565082565083565082564084564084563084565084565084573084574082573082572084571085571086574086575083597082597083596082596084595084595085596084597085607084608084607084607084607086607086607085607084610084610083609083608084608085608085609085610085618084617084617083615085615086615085618086619084633083633084633082632084631084631084632086634085126085126084125084124085124086124087126087127086173083173083172084170085172087171087171086172086201084200085201085200086199087199087199087202085208085209085208085206085206087208087208087208085224085223085223085221085222085221086223086224000000000000000000000000086228085229086230000000085371084371085370085370086370086369087370085373084376084375083375084375085375085374085374086375085385083384083383083383085383087382087382086383085392083391083390083389085390086390087391086392084395084396084395084394085394086394086395086396085406084406084405083404084405085404086407085407086425085425085424085423086423000000000000086424000000084439085437084437000000000000000000086437))
 (.node 1 (.leaf 85446084446084445084444085444085444085445085447086458085458085457085457086457087457086458000000086459085459085458085457086458086458000000000000086460085460085459085458086458000000000000000000085478085478085478084478085478000000087478087479085493085494084494084491085491086491086492087494085499084499084498084497085497087498086498086499086509085508085508084508086508087507087508087508086511085512085511084511086510086509086510086511085537084537085537084535085535086535086536087538085567083568083568084567084566085565087567087568086578084576085576084574086575000000087576086578085592084592084591084590085590086590086591086592085605084605084604085602085603087603086604086605086607085607084607085606085606086606086607087607085608084608085607085607086607087607086607086608086132086132085131085130085130086131086132086133086158085158085157085156086156087156087157087158087163086164086162085162086160087160088162088163085177086175085174086174086175088174088174087175086364084365085363085362085362086362087365086365086390085390085389085388086388087388087389087390087397085398086396084395086396087396086396088397086402086402086402086401086400087400087401087402086415085415086413086413086413087413087414088414000000086423086422086422000000000000000000000000085438085438000000000000000000087436087437086438085444085444085443085442086442086443086444086444087454085454086453086452087452088452088453088454000000086458086458086457087457000000000000000000000000000000086460086459000000000000000000000000086470085470085469086468086468087468087469087470)
 (.leaf 86473086474085472086471087472087471087472088474086484086485086483086483087482087482087483088485086498085498085497085496086496087496087497087498086502086503085501085500086500088500087501087502086554086554085553084552086552086553087555088556085565084566084565084565086565087565087566088566086592085592084591085590086590087590086590086592086614086614086613085612086612087612088614088615085626085627084625084624086625086624086625087627086632084632084631084631086630088630088631086633087121086121087119086119087119088117088118088119087128086128086127087127087126088126087128087129087144086144086143087141087142088142088143087144088154086154085152085152087152088152087152088154088159087158086158086157087157088157088158088159087166085166085166086166086166088164087166088166087196087197087196087195087194089195089196089196087198087199087198087197087196089196088197088198086361086361085360086361088360088359087361088361086367086366085365086364086365087366087366087366088369087369086367086366086367087366087368089369087372086374085373087370088371088370089371088372087392086392087391086390087390088390089391088392087407087407085407086407087407088405088406089408000000000000087430087429000000000000000000000000087437086437000000000000000000088435088436087437086444086443086442085442087443087442087443088443088453087453087452087451087451088451089452089453088454087454087453087452088452089452089453089454088456087456086455087454088454089454000000000000000000000000086458087457000000000000000000000000088481087482087481087480088480089480089480089481)))))
 (.node 8 (.node 4 (.node 2 (.node 1 (.leaf 88492086491087491086489086489088489088492000000088507087508087507087507088507088507000000088507086516086515086514086513086514087514087514087515086521086521086518086517087517088517087519088519000000087523086521000000087522087521088521087523087525087526087525087523087523087523088524087526088532087532087532086531087531088531000000088531087541087542087540087540087539088539088542088543087550087550087550086548087550087549087550088550088559086558087558086558087558088558000000088558087584087585087584087583087584089582088585000000088604086605086604087603087603088603088604089605087125087125086125086123088125088124088124088126087137088136087136086134088135088135088135088137088141087141087140087137088139088139088140088141087148086149087148087147087147088147088147088149088158087158087157087156088156089156089157089158088174088174088174088173088174090173090174089174089186088185088185088183088184089184089185089186088198087198088197087196089196089196088197089198088215087215086215087215087214088214089216088215088358087358087357000000000000000000000000090359089384088383088382088381089381089382090383089384088410088411087409087408088408090410090410090412088435000000000000000000000000000000089434089435088447087445086444086444088443089445088445088447088537087537086536087535088535089535089536090537088544088544088543088543000000088543088543088544000000088559087558088557088557000000088558089559089567000000088566087566089565000000089565089568088571000000088569088568088569090568090569089571088597088598086596086596000000088596088596088597)
 (.leaf 88629087629088628086628088627088628089628089631088133088134088133087131089130090132089132089132088137087137087137088136088135090134089136090136089157088157088156088155089155090155090156090157089199088199088198088197088197089198089198090199089208088208089207088206089206091205089207091207089222089222089222088222089222091221091222091223089370088370088369089369090369091369090369089371089378089378089377089376089376089375089377089377089401089401089400089400090400090401090402090403089472089472087471087471089470090470089472089472000000089480089480089479089479090479089480089480089484088484088483087483089482089482090483090484089511087511087510088509089509089509089510090511089515087515087514087514089513089513089516089516089534088534088533088532089532089532090533090534000000089562089561088559089559090561091562091562000000089575089574088574089574090574000000090576089581089582089581089580000000000000090580000000000000089593089593087592089592090592089593089593088596000000088596089595089595090593089594089596089604088604088603089602089602091602091603090604088613088615088614088613089611090611089613089613089623088621087620088619088619090621089621090623089626088626088625088624088624090624089624090624090119088119088118089117090117091117091118091119090153089153088152089151089151090151090152091153091170090169090168089168090168090168092169091170090177089177090177090176091175092177092177091177091182090180090180090180090180092180092180091182090199089199089198088197089198091197090199090199090213088214088213088212090213090213090213090213))
 (.node 1 (.leaf 91221089222090220089220090220092220092220092221091362090362090361089360090360091360091361091362090363089363090362090361090361091361091362091363090392089394089393089392090392091390090391091392090416089416089415089414090414091414091415090415090440089440089439090438090438090439090439090441090445089445088443089441089442090442090443090443089467089466089465000000090464091466090466090468090470089470089469089468089469090470090470090470089482089482089481089480089480090481090481090482090486089486089485089484090484091484091485091486090525088524090523090523000000092522092522090524090528089530090528090527090526090527091529090529089532089531089530088531089530090530090531090531090552090552090552090552090552092550092551092552090582089582089581089580090580091580091583000000089593000000089593089592090592091592090592091592090628089628088628089626089627090628091627091628090643000000000000000000000000000000000000090644091113090113089114000000091111092111092112091113091117090117089117090117091115092117091117093118091185089185090184091182091183093182091183092185092206091205091204091203091204092204092205092206091215091216089215090213090213092215093215093216091219090217091217091216091215093216093216092219091449090449090448090447091447092447092448092449091453090453090452090451091451092451093452092453091537090537000000090535090536093536091537091538000000091563091562091562092561092560092561092562092578000000000000090576091576092576000000092578092112090113091111000000000000000000093111092112092128091128091127091126092126092126092128093128)
 (.leaf 91149090147090147091147092147092146092147092149092158091158091157090156092156092155092156093158093167090168092166091166093165094166094167094167092207090209091208092206091207092206092206093207092357090357000000000000000000000000092357092357091362091362091361091360091361093362092362093362092364091364091363091362091362093362093365093366092370091372091369092369093369000000000000000000092380090381092380000000000000000000000000093380092400091400090398091396092398092397093397092398091405091405090403090402091402093403092403093403091482090481090481090480091480092480092481092482091482090482090481090481091481092481092482092482091488091488091487091486091486092486092488092488091492091492090491091490091491092491092492092493092525091525090525090524092523092524093524093525092550092550092550092549092550092550093551092550092560092561092560092559092558094559094559093562092599092599091596092596092597093597093598093599092602091602091601092600092600093600093601093602092608091610092608092607093607094607094607092609092619090619091618090617092617092616093616093619092623090624091624092623091622093623000000000000093137093138092136092135093135093135094136093137093143091144091144092143093143094143093143093143093153093152093152093151093151093150095152093152093192091193091193093191093192094190093192095193093394093395093395093393000000000000000000000000092409092410092409092408093408094406093409095409093448092450092449092448092448094446094449093449092454000000092454092453092452094453093453094455093477092477093475093475093475095474093475093477)))
 (.node 2 (.node 1 (.leaf 92493092493091492091491092492093492093493093494093496093496093496092494092494093494093495093496093503091503092502092501092502093502093503094503093526092526092525092524093524094524094527094528093598093598092597092596093596093596093597094598092643092643093643000000000000000000000000094643094111093111000000000000000000000000000000094111095171094173094171094171094171096171096172096173094181094182094181093179095180095181096180095181093187093187093186092186093186094186095186094187094188094189093187093186094186095186094187095188094206092205092204092203094204094203095203095206000000000000093218094216094217094216095218000000094468093468000000093468094468096467094468094469093495093495092494092493093494094495094495094496093523093524093523094521094522096522096523096523094528093528093527093526094528096527096528095530000000093539094537094537094537095537096537094538094545094546094545094544000000094544095546000000094557092555092555094554094555094554095556095557094572094572093569000000094570095570000000095572094576092578093575000000093575095576094576000000093613092614093614092611094613094612095614094614094614093616092614093614093613095614094614095614095621093619094619093619094619094619094619000000000000000000094646094645094647000000000000000000095115095116095116095113095113096113096114000000095126093127094125094124094125097125095126096126095137093137094136093135096136096135095137096139095146094148094147094146094146096146095146095147094155094156094155093154095154096154097155097155096165094166094165094164095164096164097165096166)
 (.leaf 96168094168095168095167096167097168097168097169096176095176095175095173095174096174097175096176095177094177095176095175096175097175096176096177094187093187094186093186094186095186095187096187095197095195095194095194095193096195096196095197095207095208093207093206096207096207097208097208096213094212095212094212094211096212097212097213095344093346095344094342095342096342097343097345096357095356095356095355094354096353096354096357095385094387095385095385096384000000097385097387095400095401094401093399096398096398095400096402096412094412093411095409095410095409096411096412095444095444095443094442000000000000096443096446096474095474095473095473095473095472095473000000095475093477093475095474096474000000096474096475095498094498095498093496094496097497097497097498095514095515095514095513095512096512097514096514095548095548094547094546095546095546096547096548095557094557094556094555094554095555096556096557095562095562095562095561000000095561000000096564095572095573095572094572095572097571095572095572094583093583000000094582000000095581095582095582096593094592094591000000095592095591096591096594094599093600094599094598095598096598095598097600096605095606095606095605096605097603097604097605097140096140096140096140097140096139098140097140095150095151095150095149096149096148098150097151097161096161095160096159096159098159098160097161096164095164095163095162096162097162097163096164097178096179095179096178097177098177097177097178096352094354095351096350096350096350096351096352000000000000000000000000000000000000096424097424))
 (.node 1 (.leaf 96448096448095445095444096446097446096446097446000000000000000000000000096457097457097458000000096486096487095485000000095485097484098486096487096499095499095498095497097497098497097498098499096508095510096508095508096506096507097507097508097521094520095518096518096519097519097520098520097525096525096524096523096524097524097525097526096530095530096528096527096528097528097529097530000000094538096537095537096535097537098537097537096548095548095547095546095546097546097547097548097602096602095602094600096601096601098602098603096606095606096605096605097604098604097605097606097116000000000000096114098115099115098115097116000000097134097133097132097133000000098132097134097155097155096154096153097153098153098154097155098177096177096176097175098175099174098176099177097184095185095185097183097182098182097184098184096192096193097191097189097191097189097191099193097200097200097200097200098199098198098199098200098206096207095205097205097205097205098206099206097398096398000000000000000000000000000000098398098405096404097404097404097404000000099404000000098407097408097406096404098405000000098407000000097453097455097453097453098453098453098454099455097468095469095468097468000000097468097468097468097475096475096474000000096474099474099474099476096481096481095480096479096480097480097481098481097513097514096512097511097511098513098514098515097525096525096524096523097523098523098524097525097547096547095546095546000000099545099546099548096558000000096558096557097557099556097557097558097606096606097605097604098604097605099607099608)
 (.leaf 97610097611097610096608097608099609099609098610097615097616095614096613096614097614098616097616098126096127098126097124098124098125098126098127098132097134097133097132098132098132098132099132098143098143098143096142099141100141099142098143098187098187097186097185099186099185100187100187098211098209098209097207098209099209100209100209098398097398000000000000000000000000000000000000000000098410098409097409000000000000000000000000098433096432096431097431098431098431099430098431098443097443096443000000098443098442099444099445098488098489098488096487098486099486099487100489000000096496096495098494098494100492100493098495098505098505098504098503098503099503098505098506098515097513097512097511098513100512099514000000098530097530097529097528098528099528099529099530098542098542098542098541099541000000099541099542098564097564096562096561098562099562098562099564098568098568000000000000098566000000099567000000098582096583096583097582099582099582100582100582098592098591097589097588098590099590099591100592099593097595098594098593098593100593100593100594098126098125098124098123100124000000099125000000099158099158098157098156099156100156099157100158099168099168099166098166100166100166101166099168099180098180099179099179100179101179099180100180099196099197098197099195099196101196101196101197098200098200098199098198099198100200099200099200099353098353099352099352100352100351101353101354000000098407000000099404099405100405000000000000099435000000097435097434098433100433100434100435099448099447098447097445099446101445100445100448))))
 (.node 4 (.node 2 (.node 1 (.leaf 99501098501099500099500099499099501099501099502099521099521099520099518099519100519099520099521099527098527098526097525099525100525099526100527099555099554098552099551099551099552099553099555099556097557099556099556099556099556100557099558099567098567098566098565099565099565100566000000099142100141099140100140101139100140102141102141100145099145099144098143101143101143100145100145099151099152099151099150100150100149100150100151100158099158099157099156100156101156100157102158099160099160099159099158100158102158102159100160100164099164100163099162100162100162101163101164100172100172100170100169101170101170101171101172101174100174100173100172100173101173101174102174100176099176100174100173101173101174102174101176000000000000099360099359100359101359000000000000100417099417000000000000099416100416101416100417099422099422099421099420100422101422101423100423100428099430098428098428099428101426101427100429100433098433099432098431100431101431102432102435100439099441098438099437100437102438102439102439100474099474100473098473100472100472101473101474100482098482098482098481100480101480101481101482100512100512100511100509100510101510101511101512100515000000099514100512100513101513101514101515099558099556000000099556099556100556100557100557099588098588100586098585100586100585102585101586100610100611100611099608000000000000000000102611000000100122000000100122100121102122101122000000102133099132099132099130101132000000101132000000102195101196101194101194101194102192102193103195102205101205101204101204101204101204103204000000)
 (.leaf 101352101353100351100350102351101350102351102352101359100359100358101357101357103356103357103358100423100423099422100423101423000000101423102423101444101445100445099444102442102442102445000000102451101450101450101448101449102449102450102451101457100457100456099455100455102455101455102457101489101490100488100487101487102487102488102489101496099497099496100494100494103495103495102496101503101503099503099502101501102501103502102503101550099551099550099549102548102548102549102550000000101596101595100595102595102595000000000000103138101138101135101134102136102135103137103138101142101142102141102141103140103140102142103142102143101143101142102141101142102142103142102144102160100160102159102158102158103158103159103160102186102186102185102185103184104185102185104186102415100416101414101413102413000000103414102416101427101427101426100426000000102426102427103427102492101492102492101490102490104490102492102492101518100519100518100516101516102517102518102519101520100521100520100519101518102519102520102521101521100521100521100520101519102520102521102521101531100531100530100529101529102529102530102531101532100532100531100530101530102530102531102532102550101550100549102548102548103548103549103550101560101560101559100559102560103560102560102561101568101568101567100566101565102566103567102568102588101586102585100585102586104585103587103588102592102592101591102589102590103590103591103592102611101611102611000000000000000000102611104612104139102139103140102139103139105138105138105140103151103150103149103148103149105148104150103151))
 (.node 1 (.leaf 103161102161102160102159103159104159104160103161103170103170102169101168103168105168105168105169103173102173103172103170103171103171103171103172104180103179102179102178103178103177103178104180104181103180103180103179104180104180105181104180103352102352102351101350104350104350103352103352000000101359103358103357103358103358000000000000000000102402103402000000000000000000000000104402103453102455102454101453104451104451105453103454103471101472101472102469104470104469104470104471103507102509101506101506103505104505104506104509102517101516101515102515102514103515103516103517102519101518101517101516102517103517103518103519102526101526101524101523102524103523103524103525102532101532101531101530102530103529103530103531103540000000102537101537103538103537000000103540103548102548102547000000000000104546104547103548103581103580103579103579103579103578104580105580000000000000103642103642000000000000000000000000000000104130104129000000000000000000106129106130104155103155103154103153103153104153104154105155104190102191102189104188104188105188105189106191104204103204102203104201104202106202105203105204104417104417102416102416104415104415104416106417000000102427102426102425104426104425104427104427104431104432104431000000105430106430106431105431104443104442104441104440104441106440106441106442104474102475103473103472104472106472104474104474103481102481102480102479103479104480104480104481103487102488103486102485103486104486104487104488105496104496104495103495105493105493105494105495104504103504103503103502104502104502104503106504)
 (.leaf 104513104512102511102509104511104510105512104512103523102523102521102521103521104520104521105523103526102527102526102525103524104524104525104526103527102528102527102526103525104525104526104527104550103550103549103548103548000000105549106551105563102562102561102560104561106560106562106563105584104585104584103584105583106583105583106585103592103592103591103590104590104590104591105592104614104615104613104613000000000000105613104614000000000000000000000000000000000000104637105639104638103638000000000000000000104637105639104639105148104150105148105148105148107147107148107150105157104157103155104155105155105155106156106157105187103187105186104185105185106185105186107188105200104198103197103197104198106198105198106200105433104433105433104431105431000000107432107434106448104447105447104445105445107446107447107447105469104469105468000000105467106467106468105470104502103502104500104499106499106499105501105501105536104534104533104532104533105534105534105535105539104539103540000000104538105538105539105540105547000000103545103544105545106545105546106547000000103548104547104546104547105548105549105549105554105555104555104552000000106552106553106554105559105558105557104557106556000000106556000000104572103572103572103569104571105571105571105571105596103596103595104594105594106594105595106596000000000000000000000000000000105598105598105599106116105118105115000000000000000000000000106116106119106119105118104117105118107117107120000000107131106131106130106129000000000000108130107130107132106131106131106130107131108130107130107131)))
 (.node 2 (.node 1 (.leaf 106143106144105142105141105141106142107142106144106159105159105158105157106157106156106158107159106166106166106165106163106164108164107165107166106190106191105189105188107188106189106190108190107204105204105203106202106202108201108202108204106379000000000000000000000000106377106377106379106441106442106441106440106441108440108441107441106452105454105451105450105451106452107453106453106466000000000000000000000000106465106466107466106473104474106472105471107473108472107472107473105490104490104489104488105488107489106489106489105491104491104490104490105490106489106491107491107504106504104503104502105502108503108503107506105524104524104523105523105522106522106523106523106529104529104528104527105527106528106529106530106547105547000000105545106545106544106545106546000000107126000000107124108123109122000000000000108169107169107168106168108168109168108169109170108176107175107174107174106173109173108175109176108179107179107178107177108177109177109178109179108193107193106192106191107191108191108192108193108457106458105455105455106455107456107456108458107476106478106475106474107474107475107476107477107482105481105481107479107480107479107480108482107506107504106503105502108503109502109503109504107508107509106509106506108508109507108509109508107514105515105513105513106512107512108515107515106518105519106518106517106516107515108518107517106521105521105520105519106518107517108520107519107566107565107564107564108564108564108565108566107580106580106579107578108578108578109579108578107588107587107586106586106586109586109586109587)
 (.leaf 108127107127108127000000107126109127000000109127109153108152108151107151108151110150109152109153109179108180108179107177109178110178110178109179108359000000000000000000000000108359108359109359108365106367107364107363108365109365108365109367000000000000107381106380108380108380108380109382108437108436108435108434108435108434108435108437108449107449108449107447108447110448110448110449108461106459108460108459108459110459110460110460107485106486106485106484108485108485108486108486107494107493106493107491107492108493108493109495108497106498106497106495107497108497109496110499108549106550106550106548108549109549110549110551107556107556107555107554108556110555108556109556108575107577108575107575109575109575110576110576108593108594106593106593109593109593110593110593108613107613108613000000000000000000109612110615000000000000108641108640000000000000000000000000109121108121107120107120000000110119110120111122109127108127108126107126109127109127109127111128109152109151108151108150109150110150110151111151110161109162108161108160109160111160110161111161110164109164108163109162110161111161111163111163109180108180109179109179110178111179110179111180110201108201109199108199110198111198111200111200109204109204109203109202109202111201111203111203110206109206108205109204109204111203111204000000000000000000000000109206110206000000000000000000109432108434107432000000000000000000110431109433109451109452107450108449110449111450110450109451109488107489107488108486109486109487109488109489000000000000108534108533000000110533109533000000))
 (.node 1 (.leaf 109547000000000000108545109545111544110546110547109587109586109586109585110585110585110586110587109590107590109588109587109588110588110589109589000000108616109616109615109616000000000000000000110118108118000000000000000000000000000000000000110140109140110139109138109138110139110140110141110158109158108156108155110156112156112157112157111200110200110198110198111197112198112198112200111443108443110442110441111442111442111443111444111447110447110447110446110446111446112446111448110461110460110460110459109458110458000000111459110477110478110477110476110475111475110477110478110500109498110499109496109498111498110498111500110503110504110503110502110501111503111504112504110536109534000000000000109533111534110534000000109567108567108566109566110566110565111567112567111573109571110571110570110571112570112572112572111597110597110596109596111595111596112596111598000000000000110597110596111596112596111598111599110630110631108630108629000000000000000000111630112137110138111136110136112135113135113135112136111189111189109189111187112187112187113188113189112198111198111197111197111197112197113198113199111349110349110348111347111347111348111349111350111354110354109355109353110354112352112355111355000000111361111360109359111360111359111360111361110370110370110369110368111368111367112369112370112378109379111377110377111375112375112376112377110439109439110438111436111437112437111437111439110441000000110440109439110439111439111440112441111443111442111442000000110441112441111441112443111454111454109453111454111454113454112453113455)
 (.leaf 111468111468111467111467112465111468111468111481111480111479110477110478112479111479112481112491111489109489109488111487112487113488112491111507110507111507110505111505113505113507113507111516110518111516110514110515111514111516000000111546110546111544111544111544112544112545111545112558109558111557111557110556113555112558112559110584110584109583110582111582113582113582113584112138110139112138112137112136113136113137113138113157112157112157112156112156114156113157113158112164112164111163111162112162113162114163113164113175112175112174112174112174114173113175114175112179111179112179112177113178114178114178114179112346111346000000000000000000112345112346112347111372111373111372111371112371113371112372112372112493112494111492112492113492113491114493114494111514110515111513110512112514114513112513000000112518000000111517111516000000113516112517112519111547111547111546111545112545112544112545112545113570112570112569112567112568113568113569113570112589112589112588111587112587113587113588113589113595111595112594112593112593113593114594113595114172113172112172112171113171114171114172115172114185113184113183113183114183114184115183115185114191113189113188112187114188115187115189114189114198113198112197113196113196114196115196115197113352112352111353112350113352113352113352115353112375111375111374111373112373113373113374113375000000000000000000000000113382114382113382113383113434113434113434000000112433114432113434113434113471111471111471111471112471114469113471113471114485112484113484112482113482115482115484114484))))))
 (.node 16 (.node 8 (.node 4 (.node 2 (.node 1 (.leaf 113486113487112485112484114485114484114485115487113503111503112502113500113501114501114502115502114513112514112513113511113510115510114511113512113539113540000000113539113537115538115539115541114557112558113555113555113556115556114557114558113573113571113571112571114570115571115571114571114576113576113575113574113575115574113576114577114584113584113582113582113582114582115583115583113591112591113590112589113589114589114590115591114594113594112593113592114591114592114593114594113138113137113136113135113135114136114137115137114138113138113137113136113136114137115137114138114141113141114141114140113139000000114140000000114147113149114147114146000000116146114147115149115158113158113157114156114156115156115157115158115164113164114163113162114162114161116163116163115167114166114166114166114166116165115167116168115183114184114183114183115183116182116183115183000000113201113200114199000000000000000000000000114370114370114368114367114368116368115369115370113373112373112372112372113372114371114372114373114442112442113441112440114440114439115441115442114446113446113445112443114444115444115445115446114457113457114457113455115456116456116457115457000000114469112467114467114468114468114468114469115498113496114496114495115494116494115495116497000000113533114533112531000000000000000000116534115553113553114552114551115551115551116552116553115563113564112562114561114562116562114562116563115158115158114157114156115156116156115156117158115173115172114172114171115171117171116172117172116177115177115176115175116176116176117176117177)
 (.leaf 116195115195115194115193115193117193117193116195116195114196115195115194116194117193116195116196115198115197115196114196116195116196117197000000115345115346114344113343114344116343115345115345116365115365115364115364116363117363117364117365115377113377113377113376114376116375116376116377115431114431115431114429115429116431117430116433115445114445114444114443115443116443116444115445115465115465114464115463115463116461115464116465116476114476115476115475116475117474117476116476115486115487114485114484116484117484116485117486115492114492114491114490115490117490117491116492116511115510114509114508116508116508117509117510115524000000114523114520114521116520115522115523115540115541115541115539115538116538000000117542116548114547113546113546115547117547117547116547116553115553115552115551115551117550116550117553115584115584115584115583116584116584117584115585115591115591114590114589115589117588115589115590116133115133114132114131000000000000000000117133116152116152115151116149000000116149116150117152117181115179116179116177117177118178118180118180117193115193116191115189116189118190118190118193116342114342114342000000115341117340116342116343116353116352116351115351117351118350118351118351117355115354116354116354116354118354118354118355117359116358116357115357117355117355118358118358117363116363116362116361117361118360118361118362117364116364116363116363117363118362118363118364116367115367116365116364117364118364118364118367115370114371115370115369116369117369116370116370116378115378115377114377116376116376116377117378))
 (.node 1 (.leaf 116390000000114388115388117387117388116388117390116444115444115443115442116442117442117443117444116512114512116511116511117510117510117511117512115527000000114526114524116526116526000000117528116536115536116534000000116534000000000000116535116537000000115536116534000000000000116535116535116563114562116562116561117561118560118562118562116569116568116567116566116567117567118567118568117145117145116144115142117143118141117143117145117161117161116160116159117159119158117160118161117166117166117164116164117164119164118165118166118171116172117171117170117170119170119170119171118183117184117182117181117182119181119182119182118360117361117359117359118358118359119359119360117380116380116379116378117378117378118379118380000000000000000000000000000000117391117392117393000000000000000000000000000000117392117393117394117434116434117434116434116434117434118435000000116445115445116444116443117443117443117444117445118454116454117452116452118452118452118453118454117459115459115459115457118458118457117459118459117461116461116460115459117459118459118460117462117471115471116470115469116470117470118470117471117476116476117476117474118475118476119476119477117492116492117491117490117490117490117491119493117500115499115499116498116498117498117498118500116522115522116520115519117519117520117521117521000000000000116534116533117531118531117533117534116545116546117544117543117544119543119544118544118570117570117569116569118568119569119569118571117574117575117574116574118573119573117574119575000000000000000000000000117602117602000000000000)
 (.leaf 119137118136118136118134118134118135118136119136118141117143118141117141117141120140120141118141119164117164118163117162118162120162119163119164119185117185118185118184000000000000000000000000000000000000000000118197118197119197000000000000118349117347118346118346118347120346119348120348118387117387118385117385118383119383119386119387000000000000000000000000000000118396119397000000119405118405118404117404119402119402119403119404118430117428000000000000117427118428118428119430117430117430000000117428118430119430118430119432117446116446116445117444117444118444118445118446118467117469117466116465117466120465118467118467117471117471116470116470117470119469118471118471118481118481118479118479118477119477120479119479117482000000117482118481118481119479119482118482118509117509118508118507119507120507120508120509118589118588118587117587118587119587119588118588118146117146117146117145118143119144119145119146120189119189119188118186000000000000000000000000119193119194119193119192120192000000000000121193000000000000118197118196118196120194119196000000119341119341119341000000000000000000120340121342120362119362119361119360120360121360120360121361118373117373117373117373118372119372119373119373118374118374117373117373118373119373119373119374118375117375118374117373118373119373119374119375118378117378117377117375118375119375119376119377119381119381118380118379119379119380120380120381119407119408119407119406119405119405121408120409119416117417117416117415119414119415119415119416118446117446117445117444118444119444119444119445)))
 (.node 2 (.node 1 (.leaf 119460118460118459117459000000000000000000121461119492119493117491117490120491121490119492119493119514119515119515119512120512121513121514121516119516119517119515119515119514121516121516121517119543119544119543119542120543120541120542120543120550118551117549119548119549120549120550121550119582118582119580119579119580121578121580120582121165120166119165119164120164122164121165122165000000120174120173120172000000000000000000000000120360120362120360120359121359122359122359121360119368119368120367119366120366121366120366120367119371118371118370118369119370120370120370120371119377118378118377118375119375120375120376120377120380119380119379118378120378120378121379120380119392118392118390118390120391120390120391120391119402119402119401119400119401120401120402120402120409120409120409119407120409121409121410121411119437118436118436119436119435120436120436120437121467118467120465120465120466000000121465121468120483119483118483118482119482122483120482120484120496120497119497120495121495122495122495121496120510120510120509120508120508121508121509121510120528120528120526119526120526120524122525122527121536119535120535119533120535121535121536121537120550119550119549119548120548121548120549122549121570119571120569119569120569122568121570122570121584119584119583119582120582120582122583121584122140121140121139121138121137121137123138123140000000119144119142121142121141121142121143122143122355120356121354120354122354122354122355123356120372119373119372119371120371121371121372121372120389119389119389120388121388121388121388121389)
 (.leaf 120399119399120399119397120397121398121398121399121411120409000000120409121409121408121409121410121429121430119429119427122429123429000000123430121450119450119449120446120447122448121448121449121461121462121461000000000000000000000000121461120478000000119477119477121477122477121478121478121510120510121509120508121508122508122509122510122522120520121520121520122519123519123521123522121523120523121523121521122522123522122522122523122557120558121557121556122556123555123556123557120592119592120592120591121591122591122592121592121593121594121593119592120592121592122592122593121599119600119600120599121599121598121599122601123163122164121163122161122162123162123163123164123166122165121165122164123163123164124165000000123356122355121355122354122354123354124354123356122360121360122359122359000000124359124359123360121372120372120371120370121370123371122371122372122396120395000000121394122394122393122394123396122477121477121476122474122475124474124476124476122478121478120478120478121478124476122478122479122511121511121510121509122509122510122510123513122523121523121522122522123522124522124522123523123562122562122561122560123560124560124562123563122581121581122579122578122579122579123580122580000000000000000000121603122603000000000000000000123163122163122162123161123161125161123162124163122337000000000000000000000000123336123337124337124354122355122354123352123353124353124354125354123361122361122360123359124359125360124360124361123375123376121375121374124373124373124374124375122397121398122397122396123396123395124397124398))
 (.node 1 (.leaf 122421121422121420123419123420124420124421123421123433122433121432121432122432125432123433123434122438121438122438121436123437123437123437123438000000000000000000123455123456124456124457000000123466122466123466122466123464123464124465124466123471123472123471121469123471124471125471125472000000123486123486123485123485124485123485123486123489123490121489122487123487123488123489125489123507122507122506122505123505124505123507124507124519123519123518123518124517124518125519125519123534123535123534122534123534125533125534125535124548123549123547123546123547125545124548125548124551122551123551123550124550124549124550124551123572121572121572121572122571124572123572123572122593122592121592122592122591123591123592124592123593122593122592121592122592123592124592125594000000122602122601121599123600123600124601000000124131123131000000000000000000000000000000124131123149122149123149124147124148125148124149124149125159123159124157123157124157125157125158125159124347123349124347124345125346125345125346125347124349123349124349123349124347125347125348125349124354123354123353123352124352124351124352125354124360123360124359124359125359126359125359126361124383124382124381124380124381125381124382124383124391123393124391123391000000124390124391125391123401123401122399122398124399125399124400124400124406124407124405124405123404125404125405124407123443122443122442123441124441124441124441124441125447124447123446124445124445124445125446125447124450122449124448124447124448126448125449124450124456123456123455124454124454125454125455125456)
 (.leaf 124502122503123501123500124500124502124502124502124504122505122504122503124502124502124504124505124518124517124517124516125515125516126517125518124523123523124522124522125522126523126524125525124528124529124528124528125526126528126529126529125554124553124553124551124551125551126552125555124584122584123583124581124580125582124582125582125141125142125141124139126140000000000000127142124149123149123149124148125148125147126149125149126160125159125159124158125158125157125159126160000000000000123198125197125198126196126197000000126344000000124344124343125343126343000000127343124373124372000000123372124372125371125372126372124400124400124399124398125398125398125398126400125405124405123404123404124404125404126404125405125412124412123412123411125410125410126411125413124420124420124419123417125416126416125418126418125471124471124470124469125469000000000000000000125473125474125473125472000000000000000000000000125479125480125478125477125477125478125478125480125486123485124485125483125484126484127484126484126492125491125490125489126490127490127491127492126534125534125533125532125533127532127533127533125542125543125542125541126541127541127542127543126557125557125556125555126555127555127556127557125566123565125564125563126563127563126563125565126144125144126143126143126142128143128143128145125153000000126152126151126152126152126152128153126337125337126337125335126335126337126337126338126357125355126355126354127354128354128355127357126367125367125366126365126365126366126367127367126375125375125374125373125373126374126375126375))))
 (.node 4 (.node 2 (.node 1 (.leaf 125377125377125376125375126375126375126377126378126378124379125377125376125377126377126378127380126404125404124404124404125403126403126404126404126411124412125410124410125410126410126411126412125449125449126448125447126447127447127448126448126454125454124453124452126452126451127453126453126487124487124487125487126487127485127486127487126524126524126523126522127522128522128523127524127539126538126537125537127536127535128538128539127553126552125551125550127551128551127551126552127556126556126555125555126553127553128555128556127569124568125566124566126565126565126567127569126574125574125573126571126572126572126572128573125579125579125578125577126577128577126578127579127597126596126595125595126595127595126596127597127331000000000000000000000000000000128330127332127364126364127363127363127362127363128363127364127389127389126388126387127387128387128388127389127400126400125398125398127398128398127399127399128436127435127435126435127433128433128434128435128444126445127443126443128442128443128444128445126453126454126453126452126451128452127452128454126456125456126456126455127455128455127455128457127485126487126484127484127485129483128484129486128532127532127531127531128531129531129532128533128539127540127539127539128539129539129539128539126583126584125582125581126582128582127582127583126585125585125585126585126584128585127585127586127597127597126596126595127595127594129594128597129143128143128143128141128141000000000000130144127150127151126149128149127148129149128149129151128160126160127159128158128158128157130158129160)
 (.leaf 127363127362127361000000127361128361128362128362128363127363127362127361128361128362128362129363127374127372126372127370127371129370128372129372127382126381126381127380128380128380128380128381128388127388127387127386128386128385128386129388128445128444128444128442128443129443129444128445127457126458126456127456127455128456128456128457000000000000127460127459127457128458128459000000129483128482128482128481128482000000000000000000128492127494128492127490129491000000000000128493129495128496128494127494128492128493130493129496129498128498128498128497129496130496130497130498128505128505128505128504128503129503129504128505127518127518127517127516128516128515129517128518128525127525127524128523129523129523129524129525128533128532128532128531129531129531129532129533129536127535128535128534129534129535130535130536129571126572128570127570128570130569130570130572128578126579127579126578128578129578130578130579128590128590128590126589127589128590128591128591129145129146127144129143130144000000130144131145130336128334129334127333128333129333130333130336000000129349129348129347130347130346130349131349130354129354129353129353130352131352131352000000129370127371127370127368128370129369129369129370129402127401127400127399128400130400129400129401129413127412128410127410128410129410129411129412128415128415128414127412129413129412130414129414129437128437128436128435128436131436131436129437128445128446128445128444129444130444129444129445128448127448127448127447129448130448129448130450128512128512127511128510129510129510130511129511))
 (.node 1 (.leaf 128567127566127565127564129565129564130564131566129155129154000000000000129153130153130154130155130157128156129154000000130153130154130155131155000000000000129164130163130163131163132163000000130333129333128333128332130331131331131334130334131339130339130338130338130338131338131339132340131340130340130339130338131339131339132340132340129388129388128386128385130386131386131387131388130393128392128391128391130389130391130391131393129397129397129396130395130395131395131396130396000000129463000000000000130461131461130461000000130513128514128513128512129512130512130512130513129520128521128519128518129518130518130519131519131578130578129578130576130577132577132577131579130595130595130593130592130593131593132593132594132146131145130144000000000000000000000000000000132163130164130163130162131162133161131163132164132340131339131339130338131338131337132339132340131341131342131341131340132340000000132340132341131352131352131352131351131350133351133352133353130357129357129357129357131355132355131357131357130361129361129359129358130358131358131360131361131377131376131375130375131375133374132376132377130384130384129381129381130381131381131382131382130389129388129388130387131387132387131388131389130399130400129398129398130397131397131398131400132417129417131417130416131416131415131417133417131426130426130425129425130425131425132425131427131440131440131440130438130438131439131440131440131455131455131453131452131453132453131454131454130512129511130511129510132508132508131510131510130512129513129512129511130512131510131512131513)
 (.leaf 130518129517129516129515131516131516131516132518131524129524130523130522130522131522131522131523130526130527130526130523130525131524131525132525132539131539131538131538132538133537132539133540130545130544130543130542131542132542131544131545132564129564131563131563132562133562133564133564132572129572130572130571131571131571132572132573131581131583131581130581130581133580133581133582131586131586130587131585131586133585133585133586132593131593130593131590131592131591133593133593000000000000131595130595132594000000000000000000132331131331130331130331131330133329132331134331133350132350132349131349133349134349134349134351132354131354132354131352133353134353134353133354132367132367132366132365132365134365134366134367132409130410130408130408131408133407132410132410132453131453132451131451132451134450133452133453132535132535132534132533132533133533134533133535133537132538131537132536132536134535134536134537133548131549132547130546133546134546134547134549132557132555131554131553133553134554133554133555133568131568132566131566132566133566134567134567134151132151133151132151134150135149135151135152133347133345133344000000000000133344133344134347134368133368132367132366134366135366134367134368133380131381133380133380133380135380135381135382132401132402131400131400133400134400133400133401133406133406132405132404132405133405134405134406000000000000000000132431133431134431000000000000133440131440131440131439133438134438134441133441000000132459133458132457133457134457134458133458133470132470132469132468132469134470135470135470)))
 (.node 2 (.node 1 (.leaf 133502133502133502131501134500134500133502134504134505132505133505132503134504135504134504135505133507133507133506132505134505135505134506133508133552132550133550132548134549135549135551135551134563133564133562133561134561134560135562134564134590132591133589133587133587133588000000000000134161134161134159134159134159135159136160136160135164133164134162133162134162136162136162135164134327133327000000000000000000000000135326136328134334133334134334133332134332135332134334135336135362134362132362133360135360135360135361135362134395132394133394133393134393134393134393135395133416133416134414134414134414134413135415135416134443134443134443133441134443134443134443135445133452133452134450134450134450135450134451134451134520132521133519133518133519135520136520134520134532134532133529134529134530136529135529134531135536134535133535134533134534135534136534136536134554133554134554132553134552136553135553136554136148135148000000000000000000000000000000000000136331134331135331134329136330137330137331136331134336134337134334000000134334136335135335137336134340133340134340134339135339135339135339135340135356135356135356134354135356137355135356137356135367134367135366135365135365135366135367135368136374135373135373135373136372137372137372137374134396133396133396134395135395135395135395135396134420133419133419134418134417135417135418135419135427135427134426133425134426135426136426135428134451133452134451134450135450136450137450137452136469134470135468135467135468137466136469136470136526135526135525134525136524136525136526136527)
 (.leaf 136534134535134534135533134531137532137533000000136538135538135537135536136536000000000000000000134546135545133545135543135543136543137545137546136571135570135570135570136570137570137570137572134575134576135574134574135574135573136573135574137152136152136151136150136149137149136150137151135153135152136152136151136150136150137151137152135163136162136162136160136161137161137162136162136326135326000000000000000000000000138326138327137348134349136347136346136347138347137348000000135366135365135364135363136363136363136365137365137372136374136372136371137371138371138372138373137385136385136383136383137383137383138383137385137388136387136387136386136387138386137388138388137389136388136387136387137388137388138388138389135407134406134406134405136404136404136406137406136407135407134406134406135407136406137406136408135415135415134413134413136413137413137414137415136446136446135445134443135443136444137445137446136456135456135455136454136454137454137455137456000000000000000000136479136479000000000000000000136520134520136520135520137519138519138519137522136525136524136524136523136523136522136523136524000000136539136538136537000000000000000000000000000000000000136539136538000000000000000000000000138154137153135153137152137151138153137152138153137162136162136161137160137160138158138161137161000000000000000000000000000000137180137181138181137357137358137356135356138356139356138356139358137362136362137361135361000000137361137362138362138386136387137385137385137385139383139385138385138402135402135400135399137400139400138401139402))
 (.node 1 (.leaf 137403135404135404136403136403139402139402137404137447137447136446135444137445137445138446137446137456136456136455136454137454138454137455137456000000137478137476137476138475139475000000000000136525136526136525136524136523137524137524138526138560136562137560137559137560138560139560138560138565135565137564136562137564138562139564139564139155137154138154137152137152139154138153139154138157138158137158137155139156139155139156139157137339136340137339137336138338138338138338138339137341136340136340137339137339138338138339138340137341136341136340136340137339138339138340138341138341137341136341136340137341138340138341138341138347138347138346138345138345138345138345139347137362137361000000137359138359139361138361140361139372138372138371138369139369140370140371140372138379137377138377137375138375138375138376139379138383137383137382137381138381138381139382139383138389138389138389138388000000139387140388140389137415136416137415137414137414139414138414139416138431136432136432137431138431139431138431139431139451137452138450137450139450139450139451139452137469137469137466138466138467000000139468138468000000138476138475138475138475139475000000000000138512137512137511137510137511139512140513140514138556138555138554137552138552140554140554140555139557138557138557138555138556140555139555140556138570138570137569138567138568139568140569139570000000000000137572138573139573000000000000000000139158138158138157139157139156000000141158139158139332139333139332139332140330140330141331140332139357139358138356139356140356141356141356140357)
 (.leaf 140370139369139369139369140368141369141369141370139390139391138389138388140388140388140389141390140411139411139411137409139410140410141411141411139426138426137426138426139426141425141426141427138457137456137456137455139455139454139455140457140518138517139517139517140516140517140518140519140547138546139546139545000000000000000000000000000000139185139184139181140183141183141184000000139347139348139347138345139345141346140346140347141353139353140353140352141353141353142354142354140361140361138361139361139361142360142361141361141411140411139411139410140410141410142411142411140419140418140417139417140417141417141418141419140447138447138445138444140445140444140445140447140468139468000000139466139466140466140466141468140475139475140473140472140473140473142473141475140512139512139511138510140510140510140510141512140515138514140514140513141513141513141514142515140518140518140516140516140516142516142517142518000000139572140571139570140570142570142570000000142152141153141152140152141150000000000000143153141178140178000000000000000000000000142177141179000000000000000000140184141184000000000000000000141214000000000000000000000000000000000000000000141335141335140334140333141333142333142334141336141353141353140352140351140350141351141351141352142382141382139380140380141380142380142381142382142388141388141387140387141387142387142388143388142394141395141393141392142392143392143393143394142397141395141395141395142394143394143395142397141399140401141399140399141399143398143398143399141429141430141428141428141427142427142428141429)))))
 (.node 8 (.node 4 (.node 2 (.node 1 (.leaf 141449140449139447140447140447141446141447142449140452139451139451140450140450141450141450142452141458139458140457139455141456142456141457141457140461139460139459140459140458141458141459141460141522141523140521141521141520141521141522143523142553140552141552139550141550142550142553143553143156142155142155142155143154000000144155143155142362142363141361142361143361144360143361143362143368142368142368142367143367143367144367000000143369142369142368142368143367144367000000000000143372142372142371142370143370000000000000143371142375142375142375142374142373143373142375143375142401141401142401141399143399143399000000143401142404142404142404141402143403000000143403143404141419141419141418141417142417144416142418142418142465140464140463141463141462142462142463142465142523141523141522141521141522143521144522144523000000000000142570142570143569143568144570142571143162143163143162143161144161144160143162143163142168000000142168142167143167143167143167143168143177142177000000000000142176143175144176143178000000000000141183141182143182144182143182000000142348141349142348143346143347143346143347143348144360143361143360143359144359145359145360144360144393143393143392143391144391145392145393145394143405142405142404143403143403143403144404144405143431143432143430141429000000000000145430145431142462141461141460141459142459143459143460143462142463141464141462141461142462143462143462143463144511141512143511142510143510144510145511145512143521143521142520142519143519145518145520145520000000000000000000143528000000000000000000000000)
 (.leaf 144558142557143557143556143557144555145557145558143567143566143565143565144565144565143566143566143171000000000000143168143169145170144170144171000000000000000000143183143182144183000000000000145341144341144340144339144338145338146341146341145343144342144342144341145341146341146342146342145395144395144394144393145394146394146395146396144399143399144399144397145398145397145398145399144404143404143403000000143403145402144404144405144452144451142450143450144450144450144451145452143457143458142456142455144456145456144456144458143466142467143466142465144465144464144466144466145512143513144511144510145511144510145512145513143516143515142515144515143514145513145514145517145559143558144558144557145557145558146558146559145560144559143558144558145558146558146559146560145562144563144561144559145560146560145560146562000000000000000000142602144603144603144603000000145328145328000000000000000000000000147328146328145338144338145338145337000000147337146337147340146342145342145341145340146341147340147340146341145344143346145344145343146342146342146343146344146360145360145359145359146359146359147359147360145364145365145364144362145362146362147364146366144372143371145370144369145369146369146370145371145382144382145380144380145380147379146381145381146394145394145393145392146391146392146393146394145401144401144400144399145399146399145400145401145412144412144411144410145410146410145411145411144453143453144453144452145452145451145453145453000000145160146160146159000000000000000000000000146354146354146352146351146352147352147353146353))
 (.node 1 (.leaf 146361145361146361146360147360148360148360148362146374145374144373145372145372147372148373147374146410145410145409145408146408146408146408146410147511144510146509146509146509147509147510147511148165147164147164146162000000000000000000000000000000145170147170147169147169000000000000000000147174146176146173145173146174000000147174147175146178146178145177145177147178147177147179148178146179146179146178145177146178147179148178148181147333147334147332145332147331148331147332148333147336147337146337147335147334148334149336148336147344146344146343146342146342147342147344147345148348147348147348147346148346148346000000148348147359146359146358145357147357148357147357149359147368147368147368147366148367149366148367149368147380147379147378146376148378149376148379148380146390146390147388146388147388147388147389147389147401145401145400146399147399148399148400148401147425146423145423145423147423148423147423148425000000145464146462147462147463149463148464000000000000000000147552147550000000000000000000000000148563146564147562146560148560148560149562148564147567147566147565146565146565147565149565148567000000000000000000147182148182148182148183148184000000000000000000000000000000148184148184149186000000000000000000000000000000148188148189148190148372147372146372146370148370150370149371150373147392146393147392147391148391148390148392148392148400146400147399147398148398149398149399149400148407147407147406147403147403149405148405149405148434147434146434147432148432149432149433148435148446148447147445000000000000000000149445149446)
 (.leaf 148452148451148450148450148450149450148451148452148600148601000000000000000000000000149599150601149331148331148330149329149329149330149330150331149338148338149338148336150337150336150337149338150368149368148367149366149366150366151367150368149400148400148399148398149398150398150399150400150413147413147413147411149412149411151412151414148454148455148454148453149453149453149453151454149567148567149565147565149565149564149565149566150183148183148182149181150181151181151182152182150192000000148191148190149190150190150191151192150351149351000000149349150349150348151350151351150360150360150359150358150358150357152358151360151364150363150362150361151362151362152363152363150374150375149373150373151372152372151373152374150400149400149399149398150398151398151399151400149417148417149417148416150416151414150416150417150422150421148419148419150420150420150420151422149424148424148423149423150423151423151424150424150435148435148435149433149434151433151434150436149512148513149512148510150511150511150511150513150517150517150515148514150515150514150516150517150573150574150573149571151572152572152573152574150190149190151188150188151188152188151189151189151328151329150327151327152326153327153328153328150347150348150345000000151346151345151346152348151376150376150375150374152374152374152375153377151385150385151384151383152383152383152384152385151398150398150397150396150397151396152397152398151405150405151405149405151405153404153404152405150514150515149514149512150513152513151513151514152560150560151558151557151558153557152559153560)))
 (.node 2 (.node 1 (.leaf 152182152182152182151182153181000000000000000000152342152342152341152341152340152340152342152342153365152365152364152363153364154364154364154365152383152383152382152381152381153381152382152383152399151399151398151397152397154398153398153399152416151414152414152413153413154413000000154415152433151433151432151431151431152432152433153433151440151440000000151440152438153440152440152441152441150442151440000000151440152440152441152441000000000000152455151455000000000000000000000000152562151562151561152561153561000000154562154563152573152574152573152572153571153571152572153573000000152193153192152191153191154191154192000000152338152337151337152335152335154335153337153338152340152340152339152338153338153339153340153341154354152353153353152351153353154353155354155354153359152359153357153357153357155357155357154359153361153361153359152359153359154359154360153361154364153364153364152363152362153363154364154365152372152372152371153371153370153370153372153372152392151393152392153389153389153389153391153392152393151393151393152392152392153391153392000000153405152405153404153404154404155404155405154405154412153412153411153411153411154411155411155412000000153414153413153412154412155412000000155414152433152432151431151431153430154430153432154432154567152566153566153566153566154566153566154568154571153571153570152570154568154568154569155571153574153574152573152572152572154572153574153574154327153327153326000000000000000000155326155327154334153334153333153332153332155332154333154335154381153381154380154379154379155379154380155381)
 (.leaf 153387153388153387152386154386154386154387154387154400153400153399153398153398156399156399154400000000154413154412154411155411000000000000156413154423154423154422154421154421154420154421154422154430153430153429152428153428154429154429155430153437153437152437153437154437154436154436154438154520153520154518154517154518156518155519000000155326154326000000000000000000000000000000000000154333153334153332154331156331155332155333156333154349153348153348153348154347156346155348156348155354155354154353154352154352155352156353157354155369154369154368155368156368157368156368156369155384154384154383154382154381155382155382157383154387153387154387154386154386156386155386155388155417155418154418155416156416157416156416157417155430154430153429153428154429156428155430156430154436154437154436154433155435155434157435157436155515155515155514155512155513155513155513156515155519154519154518154517155517156517157518156519000000000000155558000000000000000000155558000000156366155366155365154364157363157362156364156365156367156366155366155365155364156364156365156366156369155369155368156368157368157369158369157369155378155378154377155374156376158375156376157376155380155381154380155379156379156378156379156381155388154388154387154387155386156387156388156388155389155389154389154388155388156388156389156390157416156416156415156414157414158414158415158415158191157189157189157189000000000000159189157190157339155339155337155335157337157336157338157339156342155341155341157340157340158340157341157341156345155345155344155343156343157343157344157346))
 (.node 1 (.leaf 158354157354157354156353157353157352158354159354158359157359157359157358158358159358159358158358158400157399157399157399158399159398159398158399158409157409157408157407158407158406159409159410158414157413157413157412158412158412159413159414158415157415157414157413158414159414159415159415000000000000000000156519157519158519000000000000157574156574157574157573158573000000158573000000000000000000000000000000158221158220160222158223158330157330158330000000000000000000000000000000157341156342157341157340158340158339158340158341158347156348157346156346157347158346158347159349159358158358158356157356159355159356159357159358157362158361158361157361158361160360159360159361158375156376158375158374159374159373159374158375158383158383157382156381157380158381160381159383158394157394156394157392158392158392158393158394158406158407158406158404158404159404159405159406159414158414158413158412158412159412160413159414157443156444000000157443157443158442158443158443000000000000000000000000000000160229159229160229159332158332159331158330000000000000000000161333158342157343157341157341158340159340159341159342158343157343157343157341158341159341159342159342159371159372158370158369160369161369161371160371158393157394158392158391158391160391159393160393160403158403159403159402160401161401160402160403160418159418159417159416160417161417160418161419160420159420159419159418160418161419161420161421159461159461157458159459159459161458161460160461000000000000000000159234160234161234161235160235161352158352159350160350160351162350161352162352)
 (.leaf 160388159390160388160387161387161386161387162388160398159398160397159396161396161396161397162398160425159425159424158424159424161423161424161425161214160212161212161210161210162210161211161214000000000000000000160215161215161215161215161216160236000000000000160235161235161235162236162237162335160335161335161334162333162333163334163335161425160425159425159424161423161424161424161425162450161451159449159449161449162449163450162451162454161454159452161452161453162453162454162455162456159457161455161454162454162455162456162457000000000000160461161460161460162460000000000000162210162210000000000000000000162208162208162209163224162223162223162222162222163222163223163224162350162348162348162348163347164347164348164348163365162365162364162364162364164363164364164365162387161385161384160384161384163385162385163385162387161387161386161385162387163385162387162387161414161414161413162412162412162411162412162413162432160432160431160431162430163430163431162433161440160440161440161439163438162439163440164441164227163226163225163224164225164225164226164227000000000000000000000000000000163240163241000000164335163334162333000000000000000000000000164334164337163338163337163335163335165335165336165337164347162347163345162345164344164345165345165346164348163349163347162347164347165346165347165348164366163366163365163364164364165364164364165366163415162415161414161413162412164413163413163415162424161423161422162420162421163420163422163423162425161424161424161423162424163423163424163425163429163430163429162427163427164427164428163429))))
 (.node 4 (.node 2 (.node 1 (.leaf 164226164225164225163224164224165224165225165226163232163233163232163231163231164230164231164231164334164335163333000000000000000000000000000000165337164337164336163335165335000000166336166337165351164352164350164348164348166349166350166351165364164363164362164362164360166361166363166364164393162393162392163391164391164391164391164392164395162394162393162393164393164392164394165395164398162398162398162398163398165398164398164398164406164406163407164406165405166404166406166408164428163428163427163426163426164426165427164428164437163435164435163435163434166434166434166436165443164443163442164441164441166441166441165443165444164445164444164444165444165444166444166445164447164447164447164447164447166446165448166448165452163453163452164451165451165451166452166453164219164219164218165217165217166217166218166219165224164224164223164222165222166222166223166224164230164230164229164228164227165228165228165229165339165340165338165337166337167338166338167340166367165366165366164364166365167365167366167367165378163378164377164376166377167376165378165378165380163381163379163378165378165378166379165381164416163416163416163415165415165415165416166415164428164428164427163426164426166426165428165428165611164609165609163608000000000000165608000000166206164207165205164205000000000000166206167206166216165216165215164212165212166213166214167216166220165220164219165218166218167218167219167220166238165238166236165236166236166235166236166237167338166337166336000000000000000000000000000000167342165341166341165339167340168339168341168341)
 (.leaf 167369166368166368166367167367000000000000168369165394165395164394164392165393166393167394166395167404166404166403166401166401168402167402168404167409166408166408166408167406168408168408168409165419164419164419164418165417166417166418166419166444165444165443166441166442168442168443167444166454166453166453166452166452167452167453168453000000000000166458166456166457167457167458000000167220166220166219166218167218168218168219167220167241166241166240166239166238167239168238168241168345167345167343167342168341169341168344169345168370167370167370167369168369000000000000168370168378165378167376167376168376169376167377168377166417166415165416165415166414167414167415168415166417165417166415165416166415167415168415167416166420165420165419165419166418167418167419167420166426165426166426165424166425167424167425167426167225167225167224167223168223169223169224168224000000000000000000000000000000168247168248168249169354168354168353168352169352000000000000000000169355168355168354168353169353000000000000170355168356168357168356168355169355170355170356000000169386168386168385168385168383170384170385170386168401168402168401168401169399169399169400170402169409168410168409168408169408169407170408170409168410167410168410168409168408170408170409169410168427167427167426166426167426168426168427168427168441168441168440168439169438170438169440169441000000000000000000166563169562169564168564169566169223168223168222168221169221169221169222170223169227169227167227167225169227171225171227171227168231167232167231167230168231169230169231169233))
 (.node 1 (.leaf 168234167234168232167232168231169233169233169233168245167245167244167243169244169243169245169245168248000000000000000000168246169246169247169248168250000000000000000000168248169248169249170251000000000000000000000000168251169251169252169253000000169340000000000000000000000000000000000000170383169382169382169381170382170380171382170382170388169387169387169386170386170385170386171388169393169392169392169391169391171390171392171393170407168406169406168406170405171405170405170406169411169411168410169409170409170409169410169412168421167422167420167419168419169419169420169420168427167427167426167425168425169425169426169427169440169439169438168438169438170438170439170440170454169453169452168452170450171450170453171454169590000000000000000000000000000000000000169591169597000000000000168595169595169594169596171596170235169235169234168234169233170234170235172237169246168246168245168244169245170244170245170247000000170356170355000000000000000000000000000000170395170395170393169393171393172392172394172395171397170398170396170395171396171396171397172397171430170430169428168427170429170428170429170429170433170433170433170432171432172432170433172434170208170206171206000000000000000000172205171207171217170217170216171214171215171214171215172217171221169221170220170219171219172219172220172221172391171390171390171388171389173388173389172391171407170407170406170405171405172405172406172407171412171412169412169410172410172410172411172412171564169563171562000000000000000000000000172564170589000000000000000000000000000000171588172588)
 (.leaf 172209170208170208171205172205173205172207172209171233170234170233170231172233172232173234173235171242170243170242170242172242172241172242172243171251170251171251170249171250172250172250172251172251170252170251171251171250172250172251173251172383172384171382171381172381173381172383174385172434172435172434170433173434173434000000173434172442172442171441172440172440174439174441174442000000000000171595172594172594173594173595000000173209171210171210172209172209174209173209175210172241172242173239173239174238173240173240173241172256171256172256171255173255174255173255173257173384172384172383172382172383175383175383174386173398172398173398173397174396174396175398175399173401172401173401172399174400175400175401174401172408172408172407172406173408174406174407174408172415172415172414172413173413173413175414173415173418172418172417172416173416174416174417173419173424172424172423171423172423174422175424173424173445173445173444173444174444175444175444175446174451173451172451173450174450175449175450174450000000000000000000000000000000174559173559000000173566173565173564172564174563000000174565175565173595172595172594173592173593174593174594174595174215173215174213173213175213175213174214176215175238173238173237173236174236174236176237176237173244172244172243172242173242175243174243174244173244172244172244172243173243174243174244174244174392174392174390174390175389175390176390175392173432173432173431172429174430175428174430174432000000000000000000000000173559174560174560000000174587172588173586000000000000175585174587175587)))
 (.node 2 (.node 1 (.leaf 176215174215174214175213175213176213177214177215175219174219174218174217175217175215176218175219174224175225174224173222175223176223177223177224175226175227175225173225176226177225177226175226174229174229173229174227175227175227175229176229175382175383175381175380175380176380176381175383175414175414173413173412176413176412176413176414175427175428174426174425174425176425177427176427174434173432173432173432174432175432175432176432176439175439174439175438176437177437177439177440000000174555175555000000000000000000000000000000000000000000000000000000174560175560175561175561175594174594174593174592175592175592176593176594000000000000174595174594175594176594175594176596175202000000000000000000000000000000000000176202176203174204000000000000000000000000176202177203176380175380175379000000000000177378177379178381175405175404175403175402176402176402177403176404176437176437176436174435176435176434177436177437177440176439176439176438177439178439178440177441177445176444176443176443177442178443178443177445000000000000000000000000000000176580176581176581178211176212177210177210178209179210179211178212177216177215177215177214177214179213179214179216178218176218175215177215177216179216179217179217177224177223176223177222177222179222178223178224178236177236177235177235178234179234179236179236178253177253177252177252178251179251178251179253177386177387177386177386178385179385178385178386178396177396177395177394178395179395179396178396177421176419177419176417177417178417178420177420178446177447177446176444178445179445179445000000)
 (.leaf 177201000000000000000000000000000000179199178200179211178210178209177209178209180209179210180211179236178235178234177234179233180233180234180235179249178250178248178247178248180247179247180249178251177253178251178251179250180250180252180252177258176258178256178256179256180255180257180257179395178395178394178393179393180393180394180395178411177411178410177409178409178410179410178411177416177415176414177413177414179413178415178415177438177438177437177436178436178435180437180438000000000000000000177564178564179564179565178566178584178585177583177582179583179582179583178585179592178591178590177590178590179588179591180591179210179210178209178208179208180208181209180210179215179214179213179213179213180213181214180215179238178238178237179236180237181237181238181239180247178248179246179246180246181246181246181247179378177379000000000000000000000000000000179379180392179392179392179391179391180391181392181393179398177398178397178396179396180396180397180398179402178402178401178400179400180400180401180402178411178411178410178409178410179410180410179411179428179429178427177427179426180426180427180428179565177564178564178563179563179562180564180565180594178595179593179593180593180593181594000000181209180209179208179207180207181207181208181209181234180234180233180233181233181233181234182234181245180244180243180243181242182242182243182245180252180252180250180249181250182250182250182251179421179420180420178419179419180419181421181422180426179426180425180424180424181424181425180426180438180438180437178435180436180436180437181438))
 (.node 1 (.leaf 180445180445179444179443180443181443000000000000180583179583179582179581179582181583180583180583181208180208180207181206181206182206182207182208181238181239181238181237182236183237182239183240182243181244181242181241181242183241183242183244182246181246181246181245182245182245182246182247182251180252181251181250182250183249183250183251181386181387180387180384180384181384181385182386181393181393181392180391180391181391182392183393182393181394181393181392182392182392183393183393181415179416179415180413182414182413182414182415181425180425180424179422181423182423182424182425000000180445181444180443181443182443000000000000180564180565180564179562181563182563182564183565182589181589181588180588182588183587183588183589183209182210181209181208182208184208183209184210183228181229181228181227182227183227183228183229182400180400181399180398181399182399183399182400181403181402180401180400182400182400183401182402181409180408181408181405181405183405182407183407183565181566180564180564182564182563183565183566182598000000000000000000000000000000000000182598184200183201183200182200183200184198000000184200184206182206181205183204183204185203185204185206183217182217183216183214183215184215184216184217183235182235182234182233183233183233183234183234184241183241183240183240184240185239185241184242184246182247182246182245183245184245185246184247000000000000000000000000182268184269183269000000183378181379182377000000000000000000000000000000183382181383181381181381182381185381183382184382183386182386181385181384182385185385183386183387)
 (.leaf 184392183393183393182392183392184392185392185394183399181400181399182397182397183397184398183400183405181405181405181403182404183403183405183405183428182428182427181426182426184426184427184428184440183440182440182439183439184439184440185441183579182579000000000000000000000000000000000000184238184237183237183236184236184236186236186237183253183254183253184251183252184251184252185254183263182262182262183262183261184262184263184263184398182399182397183396184396185396184398184398184427183427182426182426184425184426185426185427184434182434184432184432184432184432186432185434185436184437184436183435184435184434186436186437184440183440183439183438184438185438185439185440185587184587184586184585185585186585186586186587185588184588184587184586185586186586186587186588185589184589184588184587185587186587186588186589000000184626184625183623000000000000000000185625186210184211185209185209186208187209187210187211184258183258183257183257185255185256185257185258184261183260183259183258184258185258185259185260185414184414184413184412184412185412186413187415186418184417185417183416185415186415185416187418186422183422183421185421185421185420187420187422185426184426184425183425184425185425185425185427000000000000185441184440185440186440000000000000186568184568185567183566185566185566185566186568186585185585185584185582000000000000000000000000186586185586185585185584186584000000000000000000187204186205186203185203186203186203188203188204187235184235185234186232186233187233187234187235185251184252184251185251185250187251186251186253)))))))
 (.node 32 (.node 16 (.node 8 (.node 4 (.node 2 (.node 1 (.leaf 185268184267184267185266186266186266186266187268185274184273000000000000185271186271186272187272000000000000000000000000185278186278186279186280186382184383185381185380000000000000000000188382185407184406184406184405186404186405186406186406186636186636184633185632186634187632186634187634188206187206187205187204188204189205189206189207188211187211187210187209188209189209189210189211186214186214187213187212187212189211188213187213187262186264186263185261186261187262187262188262186276185276186276186275186275187274187275187276186416186415187415186413186414189413189414188415187431000000187431187429187429188429187431187432187598187599187599000000000000000000000000000000000000000000000000000000187605000000000000000000187639187640186638186637187639189638187639187640188643187643187642186640186640187640187642188644187224186223186222186221187221188222189223188224188231186230186230186229188229188229189230188231187233187234187233187232188232189232188233188233187241187241187240186238188239188239189240188240187245187244186244186244188242188243188244188244187257186257186256186256187255189254188256188256187267187268186266186266187265188265188266188268188387188388188387187385187385189385190387190387187409186409187407186406188406189406188408188409188416186416186416187414189414189414188416189416189423187423188423188422189422190421189422189423188437187437188436188435188435000000189436190436000000000000188439187438188438189438000000000000000000000000000000188571188571189571000000000000190198189198188197000000000000000000191198190198)
 (.leaf 188244187244188242187242188242189243189244189244000000000000000000000000188284190285189285000000189404188404188403188402188402190402189404190404190421189422189421187420190420190419190420190421189423189423188422189422190421190421190422191424189427187429188428189425189425190427189427190427190639187639189638188638190636191636191637190638189219188219188218188217189216191217190217190219189232189232188231189230190230190230191231191232189270188269189269188268190268190267190269190269189270188270188269189269189268190269190269190270190276190276189275188275190274190274191275191276189284189284188283188282190282190282190283190283190644188644188644188643189642192642192644192645000000000000189649188649189649190648190650191650191198190198191198000000000000000000000000192198190214189215190214189212190212191212191213192215191217189216189215189215190214192215191215191217190223189222189221189221190220191221192222192223191261189261190260191259191259191258191259191260192391189391189389191389191388193389191390191392190397189396189395189394190394191394191395191396192641190640191640190638192639193639193640193640191212190212190211191211191210192210192211193213191238190238190238190237191237192236192237192238191241190240190240190239191239192239192240193242191272190272191272190270192271192271193272193273191282190283190282191281192281192281193282192282191392191393192391190390191390192390192391192392192424192425191423191422191422194423194424194425192432191432192430192430193430193430194431194431192228191228193227192226193226193226193227194228))
 (.node 1 (.leaf 192231191230192230192229193229193228194230193230193235192235191233191232192233193232193233193234192237191237191237192236192235193236193236193237192248191248191247191245192246193246193247194249192285191286192285191284193284194284193284193285193387191387191387191385194386194385195386195387192397191397191396191395192395193394193395193396194431000000193430192429194429194429193429194431192435192435193433193433194432195433195433193434193638193639193638192636000000000000000000194638194642193641193640193640194639195640194640195642193649193649193648193647193647195647195648195648194200193200000000000000000000000000000000000000193219193219193218193217193217194216194217194219193232192233192231192231193230194230194231195233193243192243192241193242193242194242194242194243193245192245192244192243193243194243194243194244193250192250192250192248194249195249194249194250193251192251192250192250193248194249194250194250193256193256193255192255193255195256194256194257194276194277192276193274193275195274194276194277194388193388193387193386195386195386195387194389193411193410192410193408193408195410194410196412194424194425194424194423195423195424196425196425000000000000000000000000194584195584195585000000194650193650194650194650195649000000000000000000194219194220193219193218194217195218195218195219195225193225194224195223195223196223196224196225195257194257193256193256194256196257195257196257194268194269194268194265195265196265195267195269194271193271194271194270194270195270195270196272195290194290194289195287195288196288196289196290)
 (.leaf 195395193395193394194393194394195394195394195396194399193399193398193396194397195397195398195399194405193405194403193402194403195403195404195405194407194408193406193405194405195405195406195407000000195648195647195646195646196646000000000000196282194283196282196281197281197282197283198283000000000000195290194288196289197289000000000000196387195387195386000000000000000000197386197387195408194408194407194406195406196406196407197407195413194414196412196412196412196411196413196413196421194422194420194420196421196421196421196421196429194430195430194428196429196428196428198431000000196639195638196638000000000000000000000000197203195204197203000000000000000000198202197204197207195206196204195204197203197204198206197205196214195214195214196214197212197212197214198214196228196229195228195227197227198227197227197228196238195238195236195236197235197236197237197238196254195254195253196253196252197253197253197254197268195270195269195267197268197268197268197270197275195275196274195274196274198275197275199276197387196387196386000000000000000000198386199388196400195400195399195398196398197398197399197400196434196434196433196432197432197432197432198434000000000000000000195437197438197437197438000000198210196209196209196207198208199208198208199210197210196211197211196209198210199210198210198211197218197219196218196216197217199217198217198219197234196234196233196233197233198232198233199233198390198391197389197388199388199388199389199390197395197395196395196395198395198394199394198396197401196401196400196399197399198399198400198401)))
 (.node 2 (.node 1 (.leaf 197402196402196401196400197400198400198401198402197403196403196402196401197401198401198402198403197419198418197417196417197417198417198418199418198436196435196435196434198434198433198434198436198220198220197218198218198217199218200219199219198221197221198220197218198219200219199219200221199228197227198227197225198226199226199227200228199270197271198271197270199270199269199270199270198279197280198279198278198277200278199278201280198397197398198396197395198396200397199397199397198407197407197406197405198405199406200405199406198410198411198410198407199409199408199409199411000000000000197438197437199438200438200439000000200223198222198222198221200221201221201222200223199243198242198241198240199240200241200241200243200255199255198255199255200253200253200255201257200265200265198264198263199264200264201264200266200278198277199277199276199275200275200276201276200388199388198387200387200386000000201387200388200414199414198413199414199414200413200414200414201425199424200424200424201423201422201425202425201428200429200428199428200428201428202428202428201224200224200223199222201222202222202223202224200241199240199238199238200238202239201239202239000000201286199285201284202284203284000000000000200388200388200387200386000000000000202387201388200395200397200394200393201393201394201395202395200413200413199411199411200410201410201411202411202425200425201425200423201425203425203425202425202212201212200210202210201209202209204210202211202225200225201224200223202223203223202224203225201253200253201253200250202252202252202253202253)
 (.leaf 201260200260200260200259201258202258202259202260202260201260200260200260201259202259202260202260202272202271200270201270202270203270203271202272203284202284202283202282202282204281203283204284202402200402200401200400202400203400203401204402203221202221201220203219203219204219205220204221203225202225202224202223203223204223203224203225203231203232202230202229203229203229204230204231203237202239201236201236202236205235203237203238202255202257201255201253202253203254203255204255203263202263202262201263202262203262203262204263203283202283202282201281203281205280205281204283203405203406203405201404204405204405205405204405203433203432203431203430203431203430203432203432204211204210202209204209205208206207204209205211205220204220203219204218204218204218204219205220203248202249203248203245204245204245204247204248203252202253202253202252204252204252204252204253203262202262202262202260203262204260204262204263204270202272203271203270204270204269204270205272204274202275203273202273203273204273204274205274204387203387000000000000000000000000205386204387203395202395202394203395204395204394204395204395204404203404203403204402204402205402206402205404204643000000000000000000000000000000000000205643204226203226203225203225204225205225205226206227204242203243203242204242204241205242205242205243204244203243203243203242204242205242205243205244204245204245203245203243204244205244205245205246205279204279205277204277204276207276205277205278205402204402203401205400205400206400206401206402206409205409205409205409206408207408206408207410))
 (.node 1 (.leaf 206429205429205429204428205428205428206429207429205439204439204438203436204436205437205438206439000000000000000000203440205440206440206441000000206214204214204214205214205212206213206213207214205221205221205220204219206219206219206219207219205228204228205228204226206227206226207228207229205231204231204231204229205229206229206230206230205247204247204245204244205245206246206246206246206248205248204248204247205247206246206247206248206271204270204269205269206269207269206269207271000000000000000000205282206282207282000000000000206386205386000000000000000000000000206385206386206416204417206416205416207415208414208415207418205433205434205433204431206432207432206432207432206213205212206213205211207212207212207212207214206215205215206214205214206213207215207215207215206229205229205228205227207228207228208229207229207273206273206272206271207271208271208272207272208280206280205278205277207278207278207278208280207405206405207404206403207403208403209404208405208412207412206413207411208411209412209412209412207644206644207644000000000000000000208643208644207236206236206235206233208233208234208235208235207254206254206254206252207253208253209254209255208266207268206265206265208266208265208266208267208272206271207271206269207270209270208270209272208384000000000000000000000000000000000000209384208390208391208390206388209390209390210390210390209394208393208392208391208390210390210391210393209394206394208393208392209393210391210393210394209398208399208397207397209397210397210397210398000000000000207441206440208440209440210441000000)
 (.leaf 208624208625208623207622208622208623209623209626209630208631208629207629209628209629209630000000208643206643000000000000000000000000000000209643000000000000000000000000000000208647208648000000208234208233207233207232208232209232209233209234208235207234208233207233208233209233209234209235209237208237207236207236208235209236209237209238209239208239207239208237209237209238209239209239208263207263207263208262208262210260209262210262210402209401209400209399209400210400210401210402209408207409209407208406209406211407210407209408209420208420209418209417209418211418211419210420209425209426209425209424209425210425211426210425208436208436208435209434209434209433209434210436209615207614207613000000209613209612209613210613209628209628209626208624209626209626209626209627000000000000000000209630000000209631000000000000209643208643000000000000000000000000000000210643211210209209210209000000000000000000000000000000211221210221210220210219210220211220211221212221209248209247210247210245210247212246212247212247210254209254208253209252210252212251210252211254209272209272208272209272209272210271210272210273210279208278208277209277210277210277212278210278210384209384000000000000000000000000211383210385000000000000000000210441210441000000000000000000209455209455000000000000000000210454210455210455211215209216211215211213212214213214213214213215211227209226209224209224210224211224211225211225210230209230209229210229211229211229211229211230211244211244211244211244212244213243213244213245212398211398211397211396212396213396213398213398))))
 (.node 4 (.node 2 (.node 1 (.leaf 212403210404211403210402211402212402213403212404210616000000210616210613211615211614211615211617000000000000000000000000211633211633211633000000213214212214212213212212000000000000000000000000211230211230210230210230211229212230212230212231212256211256211255211254212254213254212254213254211270211270212268212268212268214267212268212269212385211385210385211383211384212384212385212385213390212390212389212388212389213389214389213389212404212403211403211402212402213402213403214404212427212427211426211425212425213425213426212427213439212439212437211437213437214437214437000000211455210455210454210453211452212453212453212454212608000000000000000000000000000000213607213608212643210643211642000000000000000000213642212643212647210648211646211645212645213645212646213647212231211231211230211230212230213230213230213231214243213243213243212242213242214242214243215244213250213251213250212248213248214248214249214250214265212266213264213264214263215262215264215264212268212269212268213267213267214267214268213269212277213276213275213275213275214275213276213276214392213391213391213390213389215391215391215392214404212404213403212402213402214402214403214404213426213426212425212422212424213424213425214426214435213433213433213433214433215432215433215434212453211452211451211451212452213452213452213453215217214216214216000000000000000000000000000000213233212234212232212231213231214232214233214234214249213249213248214247214247214248214248215249213276212277213276213275214275214274214275215277215393214392214392214391215391216391216392216392)
 (.leaf 215396213396214394214392215393216392215393215394213417212417213417213416213416214415214416214416214422212421212421212420213419214418214420215420213426212427213426213425213425215425214425216426000000000000214437214437000000000000000000000000213455212454212453212453213453214453214454214455000000000000000000213459214459000000000000000000214607213607000000000000000000215607214606216608214624213622212622212621214622214621214622215624214627214627214626214626215626000000215626215627214647213647212646213645214645215645215646214647216260215261215260215259216259217259217260217261216262215262215261215260215259217260217261216261215281214281215280215278215279217279216280000000214454213453213453213452214453215451215453215453216612214612215612215612216611216610216611216612214618213617213617215616215617215616217617216617215638213637213636213636215636215635216637216638214647214647213647214645215645215645215646215647217231214230216230215229216229217229217230217231216250215250215249214248216248218249216250217250216264216265216264216263216262216262216264216264216394215394215393216392216392217392217393217394215419214420214418214418215418217417216419217419216612216612215611216611216610216610217611216613216617214618214617215617215616218616217616216618216625215625215624214622216623217623217624216625215639000000215639215638216638217638216639216639217244215243215242217242217242218242218243219243218258217258217258217257217257218257219257219257218258217259217258217258218258219257219257218258216264216263216262216261217261218261218262217263))
 (.node 1 (.leaf 216271216271215270215269217269217270217271217272000000000000000000216280217280219280000000000000217395216395216394217393217393218393217395217396218405217404217404216403217403218403218404219405217416216416215416216414217414217414218415218416218428217429217428217426217427219427219427218429217611216611216610216609216610217610217611217612216625216625216624216623217623218623218624217624217631215631216630000000216630217630217630218631216639215639215638216638217638217637217639218640218232218231217231217230218230218229220230218231218247217247217246218245218245219245219246218247219257218258218258217257218257220257220257220257218260217260217259218258218258219258219259219260217270217269216269216269218269218269218269218269217271216271217269216269217269218269218269218270218277218277217276217275218275218275218275219277219385217385218385000000000000000000000000000000218386218387217385218385000000000000000000220387218404217404217403217402218402219402219403218403218408217408218408216407218406220406220408218408219424217424218424218423218424219424220424219424219450217450218450217448218448219448219449219450218603217603000000000000000000000000219602219603218617216618217616218616218615219615218617219617218631217631217630216630217630218630220631220631218643216643216642216642217642218641218642218643219652000000217650218650218651219651219652220653218235217235218235218234219234219234220235221236219241218241219240219239220239221239220240220241218247218247218246218245219245220245219246219247220404219405218404218403219403220403219404221404)
 (.leaf 218458219456217454219456220454220457000000220614218612217612217611219610220610219612220614219642217641217639218640219640220640219640219641000000000000000000000000000000220654219656000000220241219241219240220239221239221239221240221241220257220257220255219255221254221255222256222256221390219389220389218388221387222387222389221389220391218392219390219389221390221389221390221391220402219402219401220400220400221400221401220402220412220412220412220411221411000000221411221412220429219429219428219427220427220426221428221429220448219448000000000000000000000000220448221448220452219452219451219450219450220451222451220452000000000000000000000000000000000000220596220597220630218629218629218627219627220627220628221628220634220634220631220631000000221632220632221632219642218642218641219642219641220642220642220642220225220225220224000000000000222225221225221226221239221239220238220237221237222237222238222239220248219247219246220245221245223245221247221247222253221254221252220252222252222252223253223254222256221256221254221254222253223254222255223255220396219396220396220395221395221394221395222397221401220401220400220399221399222399222400222401220452220452219451219450220451223450222451221452221615219616220614000000220614222615221615222617221619219620220620221618222618222617222618221620221622219624220621220620221620221621221622221623220628220627219627219625220626222627221627221628222636221635221635221635221635222635222636223636221647221647221646221645221645221645221646223648222239221239221238221237222237223237223238223239)))
 (.node 2 (.node 1 (.leaf 221258221257221256222256223255223255223256222257222264221264220263220262221263223262222263223264221268221268221267221266222268223266222268222268222269222269221268221267221267222268222268222270000000000000000000221278222278000000000000000000221402220402221401221400222400223400223401223402223420222420222418222417223418223418224418224419222424222423222423222422223422224422224423223424000000000000221457222455222456223456000000000000222617222618222617221615222617222617222617224617222627220626221624220624222625222624222625222627222229221230223228222228223228223227000000223229223239222239222238222237223237225237224238224239223255222255223254223253224252225252225253225253222257221258222256223255223255225256225257223257222265221266222264221263222263225264223265224265223389223389222388222387223387000000224388225389224404221403221403221402223402224402224403224404223408221409221408221408222407223407224407224408223418223418223416223416224416224416224417224418223424222424222423223422224422224422225423225423000000000000000000221430222430224430223430000000222603221604221601221601222602223602223602223603224613221612222611222610222610224610223612224612223632221632222631221629223630223629223631223632224221224222223220223219223220000000226220225221224233224233224231223231225231225231226231225233225244224244223244223243224243225243225244226244225252224252223252223251224251226251226252226252225390224390223389224388224388225388225389225390224391223391224390223389225389225389225390226392224402223402223401223400224400224399224400224402)
 (.leaf 224418223418223417224416224416225416224417224417225426222426224426224424224425226424225426225427223607222606222606222605224606224605225607224607225637224637224635224634224635225635226635225637224645224646224645224644225644226643226645224645224650223652224650224649225649226648225649224650225241224241225240224239225239227239227240226241225242224242224241225240226240227240226241226242225264223265225264223262224262226262225263226264000000224272223269224268225270226268000000000000225399224399225397225397225397227396227397227398224417224417224416225414225415226415225416225416224420224421224420224419225419225419225419227421225599224601224598224597224598226599225600225600225625223627223624223624225623225624225625225626226640225641225640225640226639227639227639227641224654223654223653224653225653225653225653225653227237226237226236226235226235228235227236228237227240226240225239225238226238227238227239228240226245225245226244226244227245227245228245228246226261225261225260225259225259226260226261226262226409225409225408224408225408226408226409226410226450226450226450225448227448227448227449226450000000000000225455226454225453226453227455000000226613225613226612226612226611226612226612227613227633226634225633226632226632228632228632228633227219227219000000000000000000000000227219000000227227227228227227227226000000227226227227229228227244226244226243226242227242228242228243229244227258225257225256226254226255227255227256227256226259225258225258225257227258227256227258227259228390227390226389000000000000000000228389228390))
 (.node 1 (.leaf 228395227395227394226394228393228394229395228396227406225405225404227403227404229404228405229405227419225419225417225416226415228415227417228419228425227425227424226423227423228423227424229425227587227587000000000000000000000000229586228587227591225592225591225589227589229590229590229592227595226595226594226593226594228593227595227595226605226605226604225602227603228603228604228605226610225610226608225608226607228609227609227610227620227620225620226618228619228618228619228620228636227635227634227633228633229634228635229635228636227635227635227634228634228635229635229636226656226657226656225653227655228655227655227657226659226659225658226657226656227657227657228659227230227231228229227227229228230229229230228230228236227236228235227234228234229234229235229236228246227246228246228245229245230245229245229246228252228253227251228251229251230251229251228253228396228395228395228393228394229394230395230395229399228398228398228397229397229395230397230398228603227603227602227601228601229601228601229603229632228632228631228630228630229630229631230632228649228649228649227647229647229647230649228650230245229245228245229244230244230244231244230244000000229265227263227262229263000000000000000000229389228389000000000000000000000000000000230389230402229402229401229400230400231401231401231402229414227415228413227413228413229414230415229414000000000000228428229429000000000000000000000000228613228612227612228612228612230612229612229614229621229622228620228619228620229621229621229622230628229628228627229626229626230626230627230628)
 (.leaf 229630228630228629229628230628230628231629231629230634229634229633229632230632231632231633231634230635228635229634229633230633231633231634231634229642229643229641229641230640231640230641230642231238230238230237229236230236231236231237232238230389229389000000000000000000000000000000231389230402230402230402230401231401232401232401231404230407229407229406230406230405231405230406231407229420228419228419228417229418231418230418231418230425230425230424229423230423231423230424232424000000230449230448000000000000000000000000000000230451229449230449230448000000000000000000000000000000228454230452229452000000000000000000000000230596230596230595230594230594231594231595231596230616228617228617228614229615232615232615230616230626229626229623229622230624230623230624230625230662228660228659228659231659230660230660231662000000000000000000000000230665231665230665000000231218000000000000000000000000000000000000232218231239230239231238230237231237233237233238233239231389230389000000000000000000000000000000000000232405231405231404230402231404233403233403232404231408230408230407230406230406232406231408231409230424230424230423230422231422233422232423232424231590230590229589231588231588232588231589232590231665230665229664231662231663231663231663231665232218231218000000000000000000000000000000233218233229231230230229232228233227232228234229234229233237231237231236231235232235234234233236233237232258232258232258232256232256234257232258233260232390231390231389000000000000000000000000233390232588231588000000000000000000000000233587232589)))))
 (.node 8 (.node 4 (.node 2 (.node 1 (.leaf 232596231596231595231594232594232594232596233596233610232610232609232608232609234608233610233611233648232648232648232646232646232646234648233648233653232652232652232651233652234651234651233652233656231655232655231653232653234654233656234656234232233232233231232231233231235231234232235232233246233247233246233244233244234244234245234246000000000000000000232260233262233262000000000000233405231406232404233403234403234403233405233405233417231418231417233415233415233416234416233417233606232608232605000000233606234606233606233606233617233618233617232615233615235616235617235618233629232629233628233626233627235626235627234629233632232632232631233630233630234630234631234632234390233390000000000000000000000000000000000000235395234395234394234394234392235392236394236394235411234410234410234409235409236408236409235410233417233417233416233415233416234417234417235417233424232425233424233423234423236423235424235425235603232604232603234602234602235602235603236603234614234613234612234611235612235612236612236613235616233615234615233615235615236614236615236616234624234624234622234622234622235622236622236623234640233640234640234639235639235638235639235640234662232663233661233660233661236660234662235662000000000000000000232665235665234666000000000000235219234219234218000000235217236217235218235219236227233227235226234224236226237226236227000000235231235231235229234229235229237228237230237231236235235235235234235233236233237234237234237235235257235258234256234255234256235256237257235257236400235400235399234399235399237398237398236399)
 (.leaf 235596235596235596235595235596237595236595236596236625235625235624234624236623237623237624236624235629234629235627235626235627236627237627236629235633235633234632234631235631236631236632236633235645234645235645235643235643235643237645237646236651235651235650235650236649237649237649237651237226236226236224235224237223238223236225238225236412234413235411235410236410237410237411236412236423236423236422236420236421237421238422237423000000000000235425235424236424237424000000000000237601235602236600235598236600000000237601237602237611235612236610236609236610238609238610238611236623236622235622236620236621238620238621237623236633235633236632235631236631237631236631237633236654236654236654236653237653238653238654238654237217236217000000000000000000000000000000238217238236237236237235237234238234238235238236238237238237237237237236237235238235238236238237239237238238237238237237237236238236238237239237239238238244237243237242237241238241239241238242239244238247236246237246236244238244238244239246238246237257235257237257235256238256239256239257238257237410236410236409237409237408238408238409237411237590236590237590236588000000000000238589238590238594236593237593237592238592000000238592238593237601236601236600236599236599238599237599238601237609236609236608237606237607237607237607237608238615237616236616237615238614238613238614238615237640236640237640236638238639000000238639239641238653237653237652237651238651239651239652239653238654237654237653237652238652239652239653239653237661237661236660237659237659238659237661237662))
 (.node 1 (.leaf 239239238238238238238237239237239238240238240239237411237410238409237408238408239408238410239410238414238415237413236412237412240413239413240414239603237603237602237601238601238600238602239603238635236634236634237633238633238633238634238634238659237659237658238657238657239657239658239659239223239223239221239221238220240221240222241222239223238225239223239223239223241222241224241225000000000000238227239225239226240226239226239227239250239250239249238248238248239248239250240252240255238253239253239251239253239253240254240255239394237395238393000000000000000000000000240394239595238595239595238593240594000000240594239595000000000000239665238665238665239664239664000000240406238407239405238404240406241406240406240407241418240416240416240414240414241414241417242418241628239628240628240627241627242627242628241628241635238635238634238634240634241634241635242635240659239659239658239657240657240657240659240659241216000000000000000000000000000000000000243217242240241240241239241238242238243238243239242239242256239256239256240255241255241254242256243256240410240409239409240407241407242409241409243410241598241598240597241597242596242596241598241599241606240606241604241604241604242604242605242606241640240640240639239640240639241639242639241640241234241235241234241233242233243233243234242234242241241243242240242240242239243241244241243241242397242397242397241395242395000000243396243397242401240402240401240401241400242400242400242402243592242591241590000000000000000000000000243591242592241592242591241590242590000000243591243592)
 (.leaf 242608242608241607241606242606243604243607243608242612242613242612242611243611244611244612244613242616241616242614242613242612244613244614244615243618241619242617242617243616000000000000000000243622242622242621241621243620000000000000000000242629242630241628242628243628244627243628242630243633241634241633241630242632243632242632243634242639241639240639241639241639242639242639242640241654240655240654240653241653243654242654242655243658240657240656240656241655242656242657243657243216243217000000000000000000000000000000000000243223243223242222242221243221243220245221244223000000243225243225243224244225244225245225243226243228242228243225243225000000245225243226244226243228241229241228242228243228244226243228243229242234241234241233242233243233244233245234244235244398242398242397243396243396243397243398244398000000000000000000243419000000000000000000000000243604242606242605242604243604243603244603243605244625243626243625242625244624000000000000000000243649241649242648242647243647244647244648245650244235242234243234243233244233245233246234245235245252243250244250244249245248245248245249246252245416244417244415244414244415246414000000000000000000244601244600242599245599246599244601244601244657243657242657242656243655244655244657244657245663243664244661242661244662246661245663000000245216000000000000000000000000000000000000247217244223244224244223245221245222246222246223246224246413244413245411244411246410247411247412246413247225245225244223245223246223246222247224248225245235245235246234245233246233247233246234248234)))
 (.node 2 (.node 1 (.leaf 246246245246246245246244246244246245248246246247245254245254245253246252246252246252246253000000246403245403246403246403246403247403248403247403247409245409246407246407246405246405000000247409247411246410246409245409247409247409247410000000246593244594245592245591246591247591247592247593000000000000000000246608246606000000000000000000246635244636000000246634000000000000000000246636246648246649246648246646246646248646247647248649246656244657244655246654246654246655246656246656247217247218247217000000000000000000248216248217248234245235246234246233247233249232249233249234248403247403246403247402247402000000000000000000000000247602247601247600000000000000000000000000247630246630247630000000000000000000000000248632247640247641247640247639248639249639248639248640248643247644247643247641247641248641248642248643248216247216000000000000000000000000249215249216249226248226247226248225248225250224249226250226248232247232248231248230248230249230249231249232000000247402247401248400248400000000000000000000248651248651247650247649248649249649249650249651249215000000000000000000000000000000000000250215249224248224248223247221249222250222249222250224250233249232248232248231249231250231250232250233250239248240248239249237249238000000250239250240000000248247249247249247000000000000000000000000000000000000247661247661249661000000000000000000250234250233250233249232250232251232251233251234249646249646249645249644249644250645250646250647250651249651249650249649250649252649251650251651249660249660248658249656249657252658250658250659)
 (.leaf 251216250216250215000000251216252214251216252216251234250234250233250232251232252232252233252234250647250647249646249645250646251646251647251648252214251216000000000000000000000000253213252214252233251233251232251231252231253231253232252233252245251245251244251243252243253243253244253245252639251639000000000000000000000000000000252639252653251653250652251651251651252652252652252654254221251221253220253219253220255220254221254222252233252233252232252231253231253231254232254233252239251239252238251236253237253236253237253238000000000000000000252245253245254245255245000000253643251644251643252641253641255642254642254643252650251650252649251648252649255649253650254650000000000000252246253245254245255245000000000000255656253656254656252654255655000000000000000000255215254215254214253213254214257214257214256215255222254222254221255220255220256220257221255222255642254642255642254640256641000000000000000000000000000000256232256232256232258232000000000000255713000000000000254711255710257712256712256713257213257214000000000000000000000000000000258213000000000000257242256242000000000000000000000000258213257213000000000000000000000000000000259213259213258213000000000000000000000000260212260213000000259234258233259232259232260232261233260234260213259213000000000000000000000000260213261213259220259220260218259218260218261218261219260219260227000000259226259225260225261225000000260227260227260227259226260225261225261225261226261226262221261223262221261221262221262220262221262222262653000000000000000000000000262652263654262654))
 (.node 1 (.leaf 263214263214262213263212000000000000000000264214000000000000000000262229263229264229264230000000000000000000000000000000264230265230000000000000000000265221000000264220265220000000267220267222000000000000000000264230265230000000000000000000266214265214000000000000000000000000267213267214265225265226265225000000266224267224267225267226267215266215266214000000267213000000267215268215000000000000268702269700269701271700000000000000270213000000000000000000000000000000271212270214271221000000269221270220270220271220271221271222272700271698271698270698272697273697272699000000273217271218270215270214272216272216272216273218275213275213274214274211000000000000276212276213277214000000275213275212276212277214276214277214000000000000000000275218276218000000277219278219275224000000275224275223276223278222277224277225278223278222278221277221279221279221279222280223279220278220000000278218279218280218280219280220280217279217280215279215280215282214282214281217282221281221282219282219282219283219283220283221283214282214283214282214000000000000000000283216283220282220282219282218283218285217285218284220000000000000000000000000287224287223288225000000085188085187085187084186085186085186085187085188090480089480089480090479090479091478091479091480090481089480089480089480090479091479091480091481000000000000171374171373000000000000000000000000013295000000000000000000013293015293015294015295014291013291013290000000014289015289015290015291015201000000000000000000015199000000016200016201015207000000000000000000015207017206016206016207)
 (.leaf 15234000000000000000000016217016217014214014214016215017215017216017217016289015289015288015285015286016286016287016288016294015294015293015292016292016291016293016293000000015300015299015298000000017298016298017298017192015194016193016190017190018192000000000000017206016206017206016206000000000000000000018206017216016216016215016214017214019214017214018216017247016249016248016245000000019245019246017248016285015285015283015282016282017282017283017285016287016288015286015285016285017285017286017287016324000000000000000000017323000000000000000000018207017207017206017205000000019205018207018208017283016283016282016281017281018281018282018283018304017304017303017300017300019302018302018304019308016308017308017307018307019307019308019309000000018217018216017214019215000000000000000000000000018221017219019219000000000000000000000000019229000000000000000000000000000000000000000000018234018236017233018234019232020232019234019235018238017237017237018237019235019236019237019238018240018240018239018238018238019238019240019241019317000000000000000000019315020315020316020317020170000000000000000000000000000000000000000000020199018199019198019197000000021197021198021201020231019231019230019229000000021229020230020232019238018238018238019236019237020237020238020238019241019241018240018240019240020240020241020241019244019244019243019242019242020242020244020244019246019246019245019244019244020244020246020246019250019249019248019247019247020247020249020250019250019250019249019248019249020249020250020250))))
 (.node 4 (.node 2 (.node 1 (.leaf 19254018254018253019251019251020251020253020254019255018255018254018253019253020253020254020255019256018256018255018254019254020254020255020256019257018257018256018255019255020255020256020257019258018258018257018256019256020256020257020258019259018259018258018257019257020257020258020259019260018260018259018258019258020258020259020260019290018290018290018288020289020289020289020291021177021177020176021175000000022175022176023179020261019261019260019259020259021259021260021261020262019262019261019260020260021260021261021262020263019263019262019261020261021261021262021263000000020319020318020317021317022317000000000000022173000000000000000000000000000000000000000000000000000000000000021203022203024202023204023205021263020263020263020262021262022262022263022263021266020266020265020263021263022263022265022266021267020267020266020265021265022265022266022267022295021295021294021293021292022293023294023295022268021268021267021266022266023266023267023268022269021269021268021267022267023267023268023269022271021271021270021269022269023269023270023271022289021290021288021288022287023287023288023289023304022304022303021301023302023300023302023304023391000000022390000000000000000000000000024391000000023204024202023202024202000000000000000000024234022235022234024232024232024232024233024234023272022272022271022270023270024270024271024272023285022287022285022284023284024284024284024285024285023285023285023284024284025284025284025285024297023296023296023296024294025295025296025297024299023299023298023296024297025297025298025299)
 (.leaf 24300023300023299023298024298025298025299025300024300023300023300023299024299025299025300025300024303023304023304023302024302025302025303025303025311025310025309025308025309026309026310026311000000000000000000000000025319000000000000000000025273024273024272024271025271026271026272026273025274024274024273024272025272026272026273026274025275024275024274024273025273026273026274026275025285024285024284024284025284026284026284026285026562000000000000000000000000000000026561027562026270025270025269025268026268029267027269028269026285025285025284025284026284027284027284027285026298025298025297025296026296027296027297027298027310026310026309026308027308027308028309027310027569025571025569025568027567028567029570028569028175027177027174000000000000000000000000029175028246028247028246028244029244000000000000000000028248027248028248028247028246000000029247030248029250027250028250027248028248030248030249030250028260027260028260028259029259030259029259030260027276026276026275026274027274028274028275028276027277026277026276026275027275028275028276028277027285026285026284026284027284028284028284028285028562027562026561000000028560029560029561029562028585027585000000027583028583030583029584029585030251029251029250029249030249031249031250030251030252029252029251029250030250031250030251030252030253029253029252029251030251030251030252030253030254029254029253029252030252030252030253030254030255029255029254029253030253030253030254031255030256029256029255029254030254030254031255031256028278027278027277027276028276029276029277029278))
 (.node 1 (.leaf 28279027279027278027277028277029277029278029279028280027280027279027278028278029278029279029280028281027281027280027279028279029279029280029281028281027281027281027280028280029280029281029282028282027282027281027281028281029281029282029282028284027284027284027282028282029282029284029284028285027285027284027284028284029284029284029285028290027290027290027288028288029288029290029290028295027295027293027291028291029291029293029295028296027296027295027295028295029295029295029295029553000000000000028551029551030551030552029553030573027572028570028569029571030569030570030571029574029574028573029572029572030572030575031575030260030260029259030259031258031258032260032261030267029267030266030266031265031265031266031267030540028540029539000000029539031538032539031542030551029551029550029549030549032548031548031549030561029559028558028558030559031559031560030561000000030641030640029640000000000000000000000000031271029272030270030269031269032269032270032271031308031309031308031307031308032308032309000000000000000000030316031314031315032315032316000000031535030535000000000000000000000000032534032535031566030566030565030564031564032566032567032568031579030579031578031577031577000000000000000000000000000000000000000000032120033120032120033120032254032254032253032252032252034253033253034254032268031268031267031266032266033266033267033268032543032543030542032543033541033541034544033545032547032548031546031545033546033547033548033549032566031564030563030563032564034562033563033566033114033115032113032112033112034112034113034114)
 (.leaf 33267032267032266032265033265035266035267035267032300032301032300033299033299033299034300034301033555031556033555031555033553034555034556034557034111033111000000000000000000000000035110035111000000000000000000000000034198000000000000000000034272034272034272033270035271036270036272036273035529034530033529032527034528036527035529035530034560033558033557033556034558035556035557035558034585033585032582034583034583035581034584034585034593033595033594033591034591035593034592035593034608032609000000000000034606035606035609034610035113034113034112034111035111036111036112036113035129033128033127033126035127035125036126037127000000000000000000000000035136037135037135036136035181034181000000000000000000000000036180036181035295035294035293035293035293036293036294036295000000000000000000000000035309000000036310037310035531034529035529035527035529036529036530035531035533034533033533034533035531036531036534036535035550034550033549034550035550037548036549036550035599000000000000034599035599036599036600036601035649000000000000000000035647036647036648036649036111035111035110000000000000000000000000000000036191035191000000000000000000000000037190037191036258036259036258036257037257000000037257037258036289036289035288035287036287036286036288036289000000000000035505035504036504000000000000000000036550035550034550035550037548038549038550038550036558035556036556035556036554037556037557037558036575035575034572035573036573036572036572037573036602035600035599034599036600037600037601038602036608034610035609035606035606036608036608037610)))
 (.node 2 (.node 1 (.leaf 36650000000035649035648036648036648036649036650038135037135037135035134037133000000038134038135037192036192036191036190037190039191038191038194037203035203000000035202037201000000039202038203038274037274037274037272038273039272039273039274000000000000000000036504000000037504038505000000037567036567036566036565036565038565038566038567036579036580035579036578037578038576038577038580036583036582036581035581037582037582038583038584037593037594037592037591037591037592038594037594037639036639000000000000000000037637037639038639036657036658036657036656037656038656038657038658038143036144037144036143038143040143038143039145038199038198038197037195038197000000000000000000000000000000000000000000038215038215039216000000038261038261038261038260038259039259039260039261038264038264038263037262039262040262039263040265039276038276038275038274039274040274040275040276039277038277038276038275039275040275040276040277039278038278038277038276039276040276040277040278039279038279038278038277039277040277040278040280039281038280038279038278039278040278040280040280039300037300037299036296038298039298039299039300038495037495000000000000000000000000039494039495038513000000000000000000037511038513039512038513038517038518036516000000037516039517039518039519038531036533037532038530037531040530039532038532038614037614037613038610038612039612039613038614039040000000000000000000000000040038039040039040038045038047038046000000038045040045039045039046038051000000000000000000039050040050039050040050000000000000000000000000000000039068039068000000)
 (.leaf 39136039136038135038134000000039135041137041137000000000000000000038174039174040174000000000000000000038195038194038191039193000000000000000000040205038205039205038203000000000000000000000000039208039209038207038206039206040206041208041208039260038260038259038258039258000000039259039260040271039270039270039269040269041268041270041270040273039273039272039272040271041271041272041273040274039274039273039272040272041272041273041274040282039281039281039279040280041279041281040281040285038283039283039281040282040281041283041285039497038497038496038495039495040495039497040497000000000000000000038505039505040505000000000000039520038518038517037516039518040518039518039518039554038554038553038552039550040552039552040552039562037560037560038558038559039560040561040562039568038568038567038566038566039567040567039568039571038571038570038569039569039569040570040571039574037575037574037574038572039572040573040574039625038623000000000000039623040623040624039625038637037635037635037634039635039633039636039636039646038646038645038644039644041643040645039645038648038649037648038647039647040647040648040649040035000000000000000000000000040034041036041037040038000000000000000000039036040036041039040039040060000000000000000000039057040056041057040058040127000000000000000000000000000000000000000000040145039145038143040143040143041143041144041145000000000000038153038152040153040152000000000000040406039406000000000000039406041406041407040407040413039413039410000000039410041411040411041413040549038548038548038545040547041547040546041547))
 (.node 1 (.leaf 40588039588039587039586040588041588040588041588040596039596039595038594040592040594041595040596041604038604038603040601040603042602041604041605040612038614039613039612040610041610041611040613040624039624039623038622039622040622041623040624040652040652038650038649040650042649041651042651040655039655039654038655039654040654041654041655041063039065040062039063040062041062042062042063000000000000000000000000041080041079042081042082040098000000000000000000041096041095041097041097041132039133039133040130000000000000000000000000042142040142040141040140041140000000000000000000041147041148039146041146000000000000000000000000041172040174040173040172000000000000000000042172041211041212040210040209042209000000000000042211041280041281041279041279042278043279043280043281041289041289041287041286041287041287042288042289041396000000000000000000000000000000042395041397041540040540040539041539041538042538042539042540040562039562040562040561041561043561042562041563041568039568040567039567040566041567042567042568042579040579040578041577041577042577043577042579040596040596040595040592040594041594042595042596041641040641041641041640041641042641042642042643041664040664040663039661041662042662041663041663041675040675040674040673041673042671042672041675040679000000039679040678041678042678042679042680041696000000000000000000000000041693042695041694041701040701000000000000000000000000000000042701041712000000000000000000041710042710042711042712042045041045040044041043042043043041043042044044000000000000000000000000000000042087043089042088)
 (.leaf 42174041174041173041172042172043174043175042174000000000000000000000000042196000000000000000000042261041261041260041259042259044260044261042262043300041299042299041299042299000000000000000000042416042415042413041414042414044413043413043414042422040422040420040420042420043420043421042422042433000000000000000000042431042430043430042433000000000000000000000000000000043473043474042473042482041482040481000000000000043482043483042482042489000000000000041489041489043489042489042491042502041504041503041502042500043502043503042503000000041514042514000000000000044514000000000000042521040521041520041519042519043519043520042521042542041542041541041540042540043540043541043542043555042556040554040554042554044553043555043556042567041567041566041565042565043565043566042566042605041605041604042602042603043603043604043605042612040613041611041610042610043610044611043612042623041623040622041621042621043621042622043623042633041635042633041631042631044632042633042633041663041664041663041662042662043662043663043664042688041690041687042686043687043686043687044689042711041711041710041709041709043709043710043711043102042100043100042098043100044100043100043101043115042115041114041114042115044113044114044115000000000000000000000000000000043151043152000000043183042181042180000000043179043181044180044183043195042195042194042193043193045192043193044195043272042272042271042270043270043270043272044272044402043402042399041398043400044400044401045402044407043408041406041406043406045405044407045407042422042423042422042421043421043420044422044423))))))
 (.node 16 (.node 8 (.node 4 (.node 2 (.node 1 (.leaf 43519042519042518043517043517044517043518043519043526041528041526042526043526044526043526044526043540042540042539042538043538044538044539044540043564042564041563042562043562044562044563044564043578043577042577042576043576044576044577044578043604042604042603043602044602044602044603044604043612042612042611042610043610044610044611044612043638042640042637043638043638044638044639044640043652042654042653042652042652043651043652043653043662042662042661042660043660045660044661043662043702042702042701000000042701043701044701043703043710042710041709041709042708044708044709044710044004000000043003043002044002045002044002045002000000000000000000000000044007045007045008044008000000000000000000000000000000045008044008000000044045042047043044044044044043045043045044046046045069044067043068044066044067046066046068046068044072044073043073043072045071046071046072046072044074044075043075044073044072046072045073045074044107043107043106043105044107045107045108044108044111042112042112043109043109045111044111045111044114042115042115043112043113045112045113044115044127042126044125044125044125045123045126045127000000000000000000000000000000044136044136045138000000000000000000000000000000044158044159045159043179043179042178043175044177044176045176045177044216044216044216043214044214000000045215046218044267043267042266042266044265045265045266045267045292043293044291043291044291045291046291000000044398043398043397043394044396046396046397045398044403043403044402043401044401045401046402045403044407044407043406044405045405046405045406045407)
 (.leaf 43439000000000000000000044437045437045438045439044479043479000000000000044477045477046479046479044538043538043537043536044536046536045537045538044576043576043575043574044574045574045575045576044588043588043587043586044584045586044586045588044612043612044611043610044610045610045611045612044708042708042707044707045707046707045707045708044001042001000000043719044719046718000000045001046056045058045056045055045056046054046055046056045057045058045058045056046056046055046056046057045066044066045063045062045064047064046065047065000000000000000000000000045141046141046142046143044156000000000000000000044154047154045155045156044165044164043163000000044163045164045164045166046221044221045221044219046220046219046220046221045266044266044265044264045264045264045265045266046283045283045281045280046279046281047282047283046410045409045409044407046407046407046408046411045415045415045413045413046412046411047412047414000000045424045424044424045424046424046425000000045438044438044437044436045436046436047437047437045463045463044460043460045461046461046462046463045474043474044475044474046473047474046473045475045488045489045487044488045486045486046487046490045496043497043497045496046495046496046497046498045515000000044514044513045513046513046514046515045543044543045542044541045541047541046542046543045552045553044553045552045550046550045551047553045577044577044576044575045575046575045575046575045593044593044592044591045591046591046592046593045612044612044611044610045610046610046611046612045631043629043629044629045629045628046628045630))
 (.node 1 (.leaf 45645044645044644044643045641046643045643046645045662043662044661045660045660047660046661046662045673043674043674044673045671046671046674045673045697044699043696043696045695046695046696046699046047046047046047046046046045048046048047047049047053045053046052045053046053047051047052047053046057045057046056046056046055047055047056047057046075045075045074045073046073046074046074047075045084044083046084045083046083046083046083047083046120046120046120046119047118047118047119047120046141045141045140045139046139047139047140047141045151044151044150044149046150047150046150046150046174046174045173045172045173046172048174047176000000045190046190046190000000000000000000000000045263045263045262045261046261047261046263046263045264045264045263045262046262046263046263046264045265045265045264045263045263046263046264046265047285046285046284046283047283000000000000000000046399045399045398046397046397047397047398048399047405045406046405045404046404048404048405048406046425000000045424045423046423048422046424047425046432045434045433046431046432000000000000000000047469046467044466044466046465047465047466047467000000000000000000000000000000047504047505046506045515044515045515045514046514047514047515047516046595045595045594045593046593048593047594047595046609045609045608045607046607047607047608047609045620045621045620045619046619046618046619047621046627044626045626044625045625046624046625047625046636045636045635045634045634047634046635047636046657045657045654044653046655047655047656046657046679045679045678045677045678046678046678047679)
 (.leaf 46693045695045694046691046691046691048693046693046709045709045708045707047707047707047708047711046711045711046710045709046709047711048711047711046001045001000000046718046719048717047718000000047040047040047040046038000000048038048039047041047105046105046104046103047103048103047105048105047112045111045110046110047110049109047110048110047124046124047123047123047122048122048123048124046142046142046141046140047140049139048139048142048187047187046186045185047185048185049185000000047261046261046260045259048260048259048260047262000000000000000000000000000000000000047324047324000000000000000000000000000000047324047326047326047386000000000000000000000000000000047385048386048399046399046398046397047397049397048398049399048422046423046422046421047421048421048422048423047529047527046528046527047525048525048526048529047552046550047550046550048549048550049551048552048559046560047559047558048558049558049559048560047561047563045561046561048560048561049561049563047568045570046567045567047568048568048569048570047588046588046587045586047586048586048587048588047611046611046610046609047609048609048610048611046623045624046623045621046621048622047622047623047699047700047699046699047699048697048698048699047067047066047065047064048066048064049065050067047071046071047070046069047069049071048071048072048085047083046083046083047082049083048083048085048092046093046091046091047092049090049091048093048096047098047097047094047095048095049097048097048166047168047167047164047166050165048165049168000000048180048180047179048179049179050179050180)))
 (.node 2 (.node 1 (.leaf 48275047275047274046271048273048272048274048275048279048278048277048277048277049277049278000000048398047398047397048396048396049396050397049398000000000000000000000000048429049429000000000000047446000000000000000000048446049446049447048447048453047453046452047453048451050451048452049453049462047461048462047461048461049461049462049463047473047472047471047470048472049472048471049474048478046478047477047476048478048478049477049478048500047500046498047496047496049498049499048498047503000000000000000000048503049503048503049505047516046515047516047515048515049515049516048516048540047540047539047538048538048539049539048540048546047548047545048545048546050545049545049548049551048551048549048549048549050547049550049551049558048558047557048556048556049556049557050558048573048572048571048570048571050569049570048573048581047581046580048578048579050578049578050580049604046604047604047601048603050602049604049605048609047609047608047607047608048608049608050609048614047614047613047612048612049612050613049614047625046624046623047623047622048623048623049623047629047630046628047628048628048627049629049630047633047633046632047631048631048630049630049633048634047634047633046633048632048632050633050635047646046645047645048644048644049644049645048645048651046653046652047649047649049649049652049653048661047661047660047659048659049659049660049661048687047687047686046686048685049687048687049687048715047715048714047715049714049713050715049715049028047029049028047026049026000000000000051029049050048050048049048048049048050048050049050050)
 (.leaf 49091048091047092048091048090049089050090049091048102048102048101047101048101049102049102050102050140048139049139048139049139050137050138050141049171049172049172048169050170050171051172051172050395049395048394049393050393050393051393051395050397049397048396049395050395051395050396051397000000049403048402048401049401050401050402000000049414048414049413048412049412050412050413051415048473048473047473048473048471049473050472049474049493047493048492048491049491050491050492049493048505048504047503047503048503049504050505049506048516047516048516048515049515050515049516049516049526048526048525048524049524049524049525049526049536048536048535047535048535049535050535049537050594048596048595049594050593051593050593051596049661048661048660048659049659050659050660050661049672048672049671049671049670050670050671050672049697048697049696048695049695049694050696050697000000049037050037049037000000000000000000000000050067049069050067049065050065050065051066051067050085048087049086048085050085051083051084050085051128050127050127050127050125051125052126052127050135049135049134049133051133051133051136051137049150049151049150049149050149051149050148050150050172049172049171049170051172052172052173051172050218049218050217049216049216050217050218050219050223049225048224049223050221052222050223051223000000049278049277049276050276051276051277000000050383000000000000000000000000000000051382051383051393049394050393049392050392051392052393051394050425049425050423049423049422051423051424050424050490048489049489050487050488052488050488051490))
 (.node 1 (.leaf 49506049505048505049505050505050505051506050507050508049510049507049506049507050507051507051510050515049515049514049513050513051513050514051513049522049523050521050520050521051521051522051523050568050569049569049568050566052567052568051570050577049577049576049575050575051573051574051577051600050599049599050598051597052598052599052599050612049612049611049610050610050611050611051612050632048632049633049630051631052631051631051632050642050641049639050639050640050638051641051642049663049663048662048662049662050662050663051663049675049674049673049672050672051674050674051674050059050058050057049056051058051058051058051059051078049076049076051076051076052076051076053078051081050083051080050079051079051080052080052081051116049118050117050116051116052114051116052116051131050133051130050129051129053130052130053131051141050141050138050137051139052139051139052141000000051181051179050179051179000000000000000000051267049267049266051265051265051265051267051268051315051315000000000000000000000000000000000000051416050416051415051415051414053416053416053418051476051476050475049474050475051475052475051477050507049507049506049506051506051506051506052508051513050513050512050509050511051511052512052513051523049522050522050521051521052521051521052521051527049528049526049525051525052525052526052527051611050609049609050609051609052609052610052611051634050634050633050632051632053633052633052634051650050650050649051649051648052650052651051650050661050661050660050659051659053659051659052661052691051690051689051688051689051689053689052691)
 (.leaf 51702049704050703049702050702051702051702052702000000000000000000000000000000051716052717000000052045050047051046051043053043053043052045052047052093050093052092051091052091052092053092053093052106051106051105051104052104053104052104053106051111050110051110051109052109054109052110053111052112052113051113051110051111052111052111053112053127052127052126051125053126054127053128054127052150050148051149050148052148053148053149053150052165051165052164050162052163053163054163053165000000052193052193051193000000000000000000000000000000051318052318052317000000000000000000000000000000052319051318052318000000000000000000000000053394051394052393051392052392053392054393053394051430000000000000051429051428052428052429052429052454051456051453051452051453053452052455052455052458051458052458050456051457052457053457053458052467050467050466051467052467052467052468052468052484052482052482051482051481053482052483053484052498051498051497052496052496052496052497053498051517000000050516050514052516052515052516053516052529051529051528051527052527052527053528053531052543051543050542051541052541053541052543053543052562051562051561051560052560053560054562053564052571051573052571052571052569052569053570053571053591051592051591052590053590053590054590053592053620051620052620052619053618053618053619053620052622052623052622051620053620053620053621053622052634051634051633051632053633053632053633054634052671050672051670051669052671053671052671052671052681051681050678050678052679052678054679052681053052053052053052051051054050054050053051054052))))
 (.node 4 (.node 2 (.node 1 (.leaf 53077051076052076052075053073054075053075053075053095052095052094052093053093054093054094054095053125053124053123052123053123054123054124055124053131053131052130053130053129055129055131054131053262053263053261053260053260054260055262055263053390053389053389052388053388054388054389054390000000052400053399053398000000000000000000000000053420052422053420053419054420055419054419054420052443052443051443053443053443053442054442053444053452051453053452052450052451054452054453053453053553052551051550051550053551054549053551055553053613051613051612052611053611054609053612053612053643052643051643053643053643053643053643053643053646051646051645052646052644054646053646053648052668051668051668051668053668054666053668053668053706053705051704052702053704053703054705053706054063054065053062052062054061054062055062054065054092053092052092054090054090055090054091055092054113052111052111053111054111055111055112055113054118053118052118052118054116054116055117055118053157052158053157052155053156055156054156055158000000053275054273054272054273056272054273000000054391053391053390053389054389055389056390054391054415054415054415054415054413056414055416056417055428052428053427053426054426056425055427055428054461053461054461052459054461055459055460056462054474054474052474052473054472054473054473054474054490052489053489053488054488055488054488055490054534053534053533052530053531055532054532055532054587053589053588053587053587055587055588054588053619053618052618052617053617055618054618054619053627053627053626053625054627054627054627055629)
 (.leaf 54633053633053632053631054631055631055632055633055655053655054653054652054653054652055654055655054656054658054656053656055655055656056657056657054686054685054683054683054684055682055683055686055693054694054692053690054692055690055691055692054695053695054694054694054693055693055694055695056069055069055069054068055068055067056069056070055082054082054081053080054080056080057082055083055096055097054095054094055094055094056095056096056106054106055104055104055104057103056105057106054113053113054113054112055112056112055113055113056124054126055124054124054123056124057123056124056133055133054132054131056131056131056132056133055141054141054140054139055139056139056140056141055150054150053148054146055148056146056149055149055172054172054171055169055170057170056171056172055261055262054260000000000000000000000000000000056390054390054389054388055388056388055388055389056413054412055412054412056411057411057411057413054483053482054483055481055482057482055483055483055513053515055513055513056512056511056512056513055563054563055563054561054562057562056562056563054571053571054571055570056569056570056571055570056609053609053608055608055608055608057609056610055636054636054635054634055634057635056635057636054666054666054665054664055664056666055666055666000000054710054709055710055710000000000000000000057058056059056058056058056058000000000000000000057082055081054080054080055080056080056081057081056096055096055095055094055094057094057095058098056145055147055144055143056143058143056145057147057170055170056168055168056168057168057169058170))
 (.node 1 (.leaf 56262055262055261000000000000000000000000000000057268055267056267056266057266000000000000000000056370000000000000000000000000000000000000057370056381055381055380054378056379058379057380058381056429056429055428055427056427057425058427057429056434055436056434055434056432057432057433058435056438054439055439055438055437056438056438056438056470055472055469055468056468057468056469056471056474054474054473054473055473058473058473057474055494056496055493055492056494057494057495056494057498056497055496056496056497056495057496057497057503056504056502055500056502057500057501057502057508056508056508056508057507057506057507057508056517056518055516055515055515057515057516057517057522055522056522055522057520057520057521057522056564055564055563054562056562057562057563057566056585055587054585055585056585057585056585058587056680056680055681055680000000000000057679057682056693055693055692055691056691058692058693058694057029057029056028000000000000000000000000058029057048056048056047056046057046057046058047059048057060057060056059057058000000000000000000000000057074057074057074055074057072058074057074058074057151056149055149056149056148058149057149058151058165057165056164056163057163058163059164058165057167056167056166057165058165058165058166058167057210055210056209055208057208059209058211058212057269057270057269057268000000000000000000000000057372056372056371056370057370058370058371058372058384057384057382057382058381058382059382059383058389055389055388056388057388058388058389058390057406057407057406056406057404059404057405058406)
 (.leaf 56445055445056445056444058444058444057444058444057446057447055445055445056445058444057445058446057526056526057525057524057524059525059526059526057575056575056574056573057573058573059574058575056578056579056578055576057575058575057577058577058602056601056600057601057601059601058602058603057633056633056632056631057631058631058632058633057655055654056654057653058652058651059653059654058031058032057030057029058029000000059030059031000000000000058056057056000000000000000000000000057091057090056090056090057089059090059091058090058103057101058101057101059100059101059102060103057120057119056118056118058119058117059118058121058132057130057129057128057129058130059129059132058141056141057140058139059140059139059140060142058157056157056155056155059153059155058155059155058162057162057161057158058160058159058161059160058204058205000000000000000000000000000000059204058387058386058385057385059383060384060386060386059425057425058425057425000000059423059424059425058457057457057456057455058455058455059456059459058460056461057461057460057460058458060461058461058475057475057474058473059474059473059474059475058489058490057490058489058487059489059490059491057503057502057501057500057502059502058502059502057510057508057507057506057506058507059507058508059536057536057535058533058534058533059535059536057539056540057539058538058538059538059539059540058546057546057545056545057546058545058545060547058615057615057614057613058613060613060614060615057630056630057630057629058629059629059630058630058635058635057634057633058633059633059634060636)))
 (.node 2 (.node 1 (.leaf 59642057641058641057641058641059639059640060643058692058693058692056692059690000000000000000000059699057698058698057698000000000000000000000000058699058700057698058698000000000000000000000000059050059048058047057046060047060046061048060048059084058084059084058084059084060084061084061084059094059095059094058094058092060092060095059094059102059101059100058100059100059100060101060102060104059105059103058103060103060103060104060105059124057125058125058124059124060122060123059126059133058133057133057132059133060133060134059134059207058207059206058205059205060205059206060207059216059216058215058214059214060214060215060216059453058453058452057453059453059452061453060455059482058484059482059482060481061482060483060484060486058487059485059485060485060485060486061486059490059489058487059488059488060486060489060490059528059528059527059526059526060526060527061530059556058554057553057553059554059553060555059556059567058567059566058565059565060565060566060567059575058575059574058573059573060573059574061575058586058586059585058584059584060584060585060586058608058609058608058607059607059606060606060607060646059644058645059644059644060644061645061645059657059656059656059654059655060655060656060657060050059050060050059050060048061048061049000000060104060103060103059102060102060101061101061104060120059122058121059118060118062119060119062122060141060142059140059139059140061139061140061141060160058159059159059158060158060157060159061160000000060380060380060379061378062379000000000000000000060382060380060380061379000000000000000000)
 (.leaf 60438058437060436060436059435062435061435061436061441060439060439058438060439061439061440061441059467059467059466059463060465061463060465061465059540059540058539059540060540060539061539061542060585059585059584059583060583060583061584060585059590058590058589059588059587060588060588061588061648060648060646060646061645000000000000000000061649060649060648060648061648000000000000000000060651060649060649060648061648000000000000000000060656060656059655059654060654000000000000000000060668059668060666059666060664000000000000000000061104060106060105060104061104062104061104061104061149061149060150060147061147061148062148061150000000000000060170060169061169062169061170000000061208059209060207059206060206062206062207062208061216060216060215060214061214062214062215063216000000061379061378060378061378000000000000000000061395061395061394061393061393062393062394000000061420000000060417000000060416062416062417061418061435059434061433060433061433062433062434063435061461060461061461060461062460062459062460063462061484060484060483061482061482062482062483062484061507059508060506059506060506062505062506062507061524061525060523060522061522062522062523062524062561061560061560061560061558062558062559063560061567060567060566060565062567062565062566061568060600060601060600060599060598061598061599061599060610060610060607060606061608062608062609062610062622059622061620061619061620062620062621062622061637060639060636060635062636062635062636062639061644060644060643060642061642061642063642000000062046061046062045061044000000000000063045063046))
 (.node 1 (.leaf 62093061093062093060092063091064092063092063093062114061112060112060112061111063112062112063114062122062122060119062119062120062119063119063120062163062162062161062161062161064161064162063163062208061208061207060206062206062207063207062209062228061228000000000000000000062226062227063228062393061393061392061391062391062390062391063393062433061433062432061431062431063431062431063431063449061448061447062448063447064447064447063448062451061453060450060450063449063451064451064451062458061458062456061456062456064455064457063456063472062472061472061471062471062470064470063471062473061473061472062472063472063471063472063473062484061484061483061482062482063482063483063484061497060498060497061496062496063496062497063496062498062498060498060498061497063496063497063498062505060506061506061503061503062503063506062506063546062546062546061546061544063544063545063546063575061575060574061573063573063573062573063575063578061576060576061576062576063576062576063578062595061595062593061593062593062592062592062595000000000000000000000000000000000000062678063678063134061134062133062132063132064130064131063132062149062148061148062148062148063148063148063148062170061170062169062168063168064168064169063170063427063428062426062425062426064427064428063428063464061465061464061462063462063463063464063465063485063485062484062483063483064483064484064485063512061513062513062512063512064512063512063512063540062540062539062538062538063538063540063540063563062561063560062559063559064559063561064561062608062609062608062607063607064607063607064607)
 (.leaf 63626062628062627062626063626064626063627063627000000000000000000000000000000000000063676063676064101062102064101063099063100065099064100064103064116063116062115062115064116065116065117066118064125063125062123064123064123066123065124065125063153062154063153062151064152065152065153065154065163062163063163064162064162066161065163065164000000000000000000063174064174065174000000000000063214063215063214063213064213064212065212065215063423062424063422062422063423064423064424064424064473063473063472063471064473065473064473064473064477064477063476063475065476065475065476064477064486063486063485063484064484066484065485064486064521063523062522063521063521065521064521065523063525063525063524062524064525064524064525064527064533064533062533062532064531065531065532066533063585062585062584062583064584065584064585064585064622063622062620062620064620064620064620064621064633063633063632064632064631064631065634064634066110064111065109063107065109066109066110067111065155065155063153063153065153065152067153067154065171064171063170064169064169065169067169066171064220064220064219065218065218065218065218065219000000000000000000000000065236066236000000000000065412065410064409064408065408066408066409066410065416064416064415063415065416065416065416065417064585063585063584064584065584065583065583066584064599063600064599064596065598065597067598065600065612064614064613063611065612065612066611065613066628063627063627064626066624066624065626065626064630063630063629063629065629066627065629065629066118066118065117065116066116067116067117067118)))))
 (.node 8 (.node 4 (.node 2 (.node 1 (.leaf 66140066141065141065138066138067138067141068142066209065211065210065207066207067207067208067209066222064223064222064221065221066221066222067222066226064226065225064225065225066225067225066227000000000000000000065236066236067236000000000000066489065489066488066487066487067487067488067489065507065507065506065505066507067507066508067509066514064515064514064512066512068513068513067514066535065535065534066533066533066534066534067535065572066571065569066569066570066569067571067572065622065622065621064621066622067622067623066623066673064673000000000000000000066672067672066673067101067103066102067101067101069100068102069101067104065106067105066104067102069104069104068104066132066131065130067131067131067130068132067132067207066207000000000000000000000000068206068207000000000000000000066236067236068236068237068238067429066427067427066427067425068425069427067429067442066442067441066440067440067440069440067441067477067478066476066475067475067475068476068477067487066487066486066485067485067485068486067487066497065498066497065495067496068496067496068498067509065507065507066507067507000000068508068509067515066515066514066513068513068513068514068515067535066535066534066533066534067535067535067535067553066551066550065549067549067550067551067552066556065554065554065553067554068552068555067556067558065557066555065554066556067556068555067556067567066567065567066567067565067565068568067568067582065583066583065582066582068580068583067583067591066591066588065587067589069588068590068591067617066617066616066615067615068615067616069616)
 (.leaf 66617066618066617066616066616067616069616067617068112067114067113067112068112069112068112068112068127067125066125067125067125069123068125069125067164067164067163066162068162068161069163068164068173067173066172067171068171068171068172069173068176068177066176067174067175068175069177068177068212068213066211067210068210069210069211069212068230067230066230067228068230068229068230068230000000000000000000000000068238069238000000000000068422068422068422066421067421069420069421069422069436068436068435066434068435069435069436069437067475067475067474068473068473069473068475069475068476066476067475067474068474068475069475068476068508066508067507067506068506000000068507069506068519068520067518067517068517069517070518069519069595068595068595067593068593069593069594069595068105068107068104069104069103071103069105070107069108069108068107068104069104069105070107069106069123067125067124068123069123069123069123069123069131067130067129068129069129069129071130069131069151069151068150068149069149069148069149070151069215068215068214068213069213070213070214070215000000000000068238068237069237070237070238069239070457069458068458068457069457069456071457070457069486068486067485068484069484071483070485069485069519068519068518068517069517070517070518070519068531068530068529067529069528069529070531069530069542068540068539068538069540069539070541070542069547067548067546067546068545070545069548070547068576068575067575068575069575069574070574070575069589069588067588068587069587069586070586070589069606068606068605067604069606069605071606071607))
 (.node 1 (.leaf 69671068671000000000000000000000000000000070671068679067679068679067677068678069678069678070680071111069112069111069110070110070108071109071112069144068144069144068142070143071143071144070144071156068155070154069154070154072154072154072155069163069163068161068161070161072159071162071163070170069170068169069168070168070167071169071170070213069213069212069211070211071211072213071213070238069238069237069236070236071236071237072238070401000000000000000000000000071399071402070402070411069411070411069409070409071409072411070412070424070425069423069422070422072423072424072424070431069433069432070430070431072430071432071433070449069449069446069445070445071445070447071447069452069452068452068452070452071452071453070453070519069519070518069517070517072517071518071519070601069601069600069599070599071599070600070600070604068604068602068601070602071602072601072604070612069610069609070610070610071610072610072612070619070621070619070618070617071617070618071619070629069629069626070626070627071627071628070629071128070126070125069125070125071126072127072128071139070137071137070135071137072137072138072139071170069172069171070170071170072170071170072170071179070179070178069177071177072175072178071178072184070184069182069181070181071182072183072184071201000000000000000000000000000000000000072201071208069208070207070206072206072206072207072208071213070213069212070211071211072211072212072213071229070229071227071227071227072227071227072229071230069230070229071229072230072230072231073232070443071444069443070443071441071441071443071443)
 (.leaf 71458071459070457071457072457072458072459073460070471069471069471069470071470071470071471072472071484071483071482070482071482072482072483072484071510071510071510070508071508071509072509000000071546069548070545071544072544072544072545072546070558069558070558069555070556072557071557072559071563070563069561069560071561071561072562072563071580071580070579070578071578072578072579072580071591069591070590070589071589072589071590072589071628070628070627071625071626071626071626071627072117071117071116071115071116072115072116074117071185070185071185072184072184074183073185072185073192070191070191072190072190073190074191073192072216071216071215071214072214073214072216072217072222071222070221071220071221072222072222073222000000072240072238072238072238073238073239000000000000000000072358072357072358073358072358074360072411070412072411071409073409073409072410074411072417071417072417071417073417074417073418074418071451071452070450070449072448073450072450073450072461072462072460071459073460073459073460073461072463071463071462072462072461073461073462073463072486071486071485071484072484073484073485074486073517072517071516071515072515073515073516074519072535071535071534070534071534072534073534072535072549071549071548071547072547073547073550074550072571072571070571070570071570074569073572072572073604072604072604072601072603073603073604072605073613071614072612072612072612074611073611073614000000000000000000070631073632073633072633072634072110072111072110073109073109074107074108073111073154072154072153072152072152073152074153074154)))
 (.node 2 (.node 1 (.leaf 73175071174072172072171073173073172073173073174073201072201000000000000000000000000000000000000073211072211072210072209072210074209074210073212073232073232072231072230072230074230073230074230072245072245072242000000073243074243073243073244073393072395073393071391073391074391074392074393073404073405073404073403074402074402074403074404074422072422073422073422074421074422075422075422074439072440072439073438074438075437074437075438073474073475071473072472073472074472075473075475074486072486071485072484073484074484074485074486000000072505000000000000073505073505074506074507074519073517072516072515073515000000000000074519073519072519072518073517074519074519000000074519073531072533072530072529073531075529075530074531073586072586072583073583073584074584073585074586073591072591071592072589072591074591074592075592073608073608072607072606073606073605074605074608073130073131072130073129074129075129074129075131074154073154073153072152073152075152074152076154074168073170072169073166074166075166075167075168074183074182072182073181074181075181074182075183074207073207073206072206073206075205075206075207075344073343074343073341074341075343076344075345074374073374000000000000074372075372074374075374075437074438073437073436075436075436074436076438074464074464073463073462074462074464075463074465074486074486073485073484074484074484075485000000073490072489073490073489074489075489074489074491073540073541073540072537074539074538074539074540074553074553074552074551074551074551075552075553074562073562073561072559074560074559075559074561)
 (.leaf 74566073566074565073564074564074563075565075566075577074577073576073575074575075575076576075577074625074625072625072625074623076624076624075625074673074674073672000000000000000000075672075673000000075105075105075104000000000000000000000000075134074134074133075132075132075131076133076134074138073138074137075136075136000000077136076138075142074142000000073139075140075139075140076142074171073172074170074169075169075169075171076171074195074195074194074193075193075193076194075195075213074213074212073212075211077212077213077214076239073240074237073237075238077238077238077240074379074378073377073377074378076376075378075379075386074386075386074384075384076384076385076386075396073396074395073395075394075395076395075397075427074427075427075426076426076425076426077427075438075438074437075437076438076438077438076438075446075447074445075445075444077444076445076446075458073458074457074456075456076456075458076458076479074478075478075478076477077477076477076478074506074507074506073505075505076505075505076507075511000000074508000000074508075509075509076511075553074553074552074551074551077552077553075553075579075579074578075577075577076577075579076579074600074600074599073598075598075597075599075600075603074605074604073602075601076601075604076603075610074610073609074608075608075607076609075609077115076115075115076114076114076113077115078116076124074124074124076122076122078124078124076124000000074146075145075144076144077144076145076145076167075167075166075165075165076166077166077167075183075183074182075181076181077181077182076183))
 (.node 1 (.leaf 76203075203075202000000000000000000077202077203000000074360074360075360076360076360077361000000076404074404075403074403076402076403077403076404075408075407075406075405075406077405076407076409075413075413075412075411076411076410076412076413075414075414075413075412075412076412076413076413076431074431075430076429076429078429077430077431077444075444076444074442077443078443077443078445076473076474076473075473075471076471077472077473075525074525075522000000076523076522077522077523076526074527075527075526076524076525076525076527075567074567075566075565076565077565076565077565077625076624076624075622076624077624078624078624078120076119077119076119077117078117078118078119078157075157077156076156077156078156079157079157077213077214077213077212077211077212077213079214078222076223077221076221078221078221079221079222078224077225077223076223078222079222079222079224077235077235076234077232077233079232079233079234078236077238077236076236078235079235079236079237000000077243077242076242077242000000000000000000077394075395076393076392077392077393077394077394076413075414075413075412076412078412077412078412077449076449077449077449078448078449079448077450077495076495076494077494077493077494077495078495077502076504076503076500077500078500078501078502077513000000076512076511077511078509078512077513077535075537076534075534076534078533077535078535077542076544076543077542077542077541077542079544077556076556077555076554077554078554079556078558077581077581076580076579077579078579078580078583076585076586076583076582077584077584077584077586)
 (.leaf 77592075594076593076592076591077591078591079593076631076632076631076628077630077629078631077632077634077635077634077633077634078634078635078636078120077120078120078119078118079118079119080120078134077134077133078132078132078132079133079134078152078152078151078150078150078149078150079150078162077162076163076161079162079162079163078163077179076179078177077177079175079175079176079177078183076183077182077181078181078180078181080182077191077191077190076188078189079189079190079191078207077207077206077205078205078206080206080207079228078227078227078226079226000000000000000000079231078231078230077230079229000000000000000000077368077368077367000000078368078366079369078370077417077417076416076414077413078415078415079417079441077440078440078439079440079440080441080441077470076471077469078468078468080469078470079470078472077472076471076471077470079470079471078473078488078489076489077488079487079488080487079488000000076515000000000000078514078513078514000000078554077554077553077552077553079554079555078555078580077580077579077578079578079578079581078581078617077617077616078615078615079615079616080617000000078149078148077146079147079147079147079148079176078178079175079175079174080176079175080176078190077191077191078190079190079190079191079191079195077195077193078193079191080193079193079194080218079218079217079216080216081215081217080217080223079222079221078221080219081220080222081222080225079225079224079222080223081223081224000000000000079227079226079225080225000000000000000000000000079236079235079234000000000000000000000000))))
 (.node 4 (.node 2 (.node 1 (.leaf 78370078371077368077368079369080367079369080369079388078388077387078386079388080388079388080388078403078403079402079401079401079401079401079402079405077406078406078403078404080405079405080405080429079428079428078426080426081427081427081428080459079458077457079456079457080457081458081459079490078490078489078488079488080488000000080490078508077508077508078505079505079506080506079507079533077532078532078531079531079530080530080531079534077535078533078532078532079533080533080534078570078570079568079567079568080566080569080570079600078600079599079598079598081598080599081600079610079610079610079610080610081609081610080610079635077636078636078635078634080633079635079636080137080136079136080135080135081135081136082137079196078197078196079195079194080195080196080196080202078203078201078201079202081200080201080202080208078208080207080206080206080207080208081208079374080373080372078371080372081372080372080373080379079379080379079377079377081377081378082381080429079429080429080427081427082428082428081429081459080459080458079457080457000000081458081459079518078519078518000000080518080517080517080518080552079554079551079550079550000000081553000000080560079560079557080557080558081558000000081560081564079564079563078562080562081562081563081564081610080610080610080609081609081609081610082609000000079639080639079639080637081639081640000000082131081129080128081129081129082127083129082129082156081155080155080154081154082154083154083156082184080183081183080183082183083182083183083184082199079199079197079197080197081197081197081198)
 (.leaf 82215081215081215081214081215082215083216082215000000000000000000000000080248081249082250081250081365081365080364079363081363081363082364082365081424081424080423081422082421083421082421082422082435080433080432081433081431082431083432082435082436081436081435080433082435082435082436082437082449080448081448081447082447083446082447082450081465081466081464081464000000000000082464082465081469081470081469080467081467082467082468082469081489000000080488080487082488082487082488081490081504080504080503079502080503082502082503082504081530080530079530080528081528082528082529083530081590080590080589079588081588082588000000082588081600081600080599081598081598081599082599082600081609081609081607081607082606082607083608083608081618081618080617080616081616081615082615081617081631080631081629081627082628082629082630082631081634079635080633079633081632081632083633082634082139000000081138082137083137083137083138084139081165080165081165081164082164083162083165082165082205081205080204080204081205083203082205082205000000000000082222082221082221000000000000000000082366081366081365081364082364082365083365083366082383082383080381082381082381082380082381083383082393082394082393082393082393083393083394084394083396082395082394082394082393084394084396084396082412082411082410082410082410083410083411083412083419080419082418081416082418084417083419083420082431081431081430081429083430084430082431082431083462082462082461082460000000084460084461084462082482081482082480081480082480084479083481084482082504081504080503080503082502082502083503082505))
 (.node 1 (.leaf 82542082542081541082540082540082539082539083542082548082549081547081546081546083546083547082548082559000000081558081555082557082556082557083559081561081562081561081560081560083560082560083560081583081584081583081582082582083582082582084584081599081598081597081596082598083596082597082599082611081611081610082609083609083609084610084611082628081626082626080624083626083626083627083628084139082139082138083137083137084137084138084139083167082167081166082165083165083165084166084167083175082175082174082173082174084173083174083176083365082365082364081363082364084363084364083366083405081407082404083403083403083404083404084405084414083415082414082413083413085413085414085415083468082468082467082466084467085466084467084468082527081527082527082526083526083526083526083527084125083125082125083123084123086123085124084125085165083165083162083161084163086162086164086165084204082205083203082203084202084202086204084205084214084213084212083212084212084211085213085214084378083380083379082378084376085376084377084379083385083386083385082384083383084384085385085386084406083406083405083404083404084405084406085406084472084472083471083470085471085470086471085472085495083497084495084495085494085493086495085495083568082569083568082566084567084566084567085567084572082573082572084570085571085570085571086574083593082593083592083591084591084591085592085593084596083596082596082595083595084595084595085596084609083609083608084608085607085607085608085609084620083618084617084617084618085618086619086619084632084633082632082631084630084631084631084632)
 (.leaf 85131084131085131085131084129085130085130086131086174084173083173083172085173087171086172086175086224084225085223085223085223086223086224087224084365084364084363084362085362085362085364086364085376084376084375083375085376085374086375085376086427084428085426085425086425086424086425086426085445084445084444084443085443086443085444085445000000085463085462085461000000000000000000000000085492084494084491084490085490087491086491086492085498084498084497084496085496086496087498086498086518085519085518085518085518086516086517086518086520084519085519085518086518086517086518086521085536085537084535084534084534085534086535086536084566084567083565084565084565086565085565085565085579085578084576085576085577087576086578086579086131085131085130084129085130087129086131086132085144084144085144085143086143086143087144087145086154085152084153084151085152087152086152088154087158086158085158085157086157087157087158088159086178085178086175085174086176088174087175087176087208085208086208085206087208087208088208088209086361085361085360085359086361088360086361086361086367084367084367085365085365086366086367086367087370086370086370085370087369088369088370088371087391086391085390085389086389087389087390088391087393085393085392086391087391088391087392087393087398086398085398086396086397086396088397087397086401086402086401086400087400088400087400087401086437000000000000000000000000000000087436087437086443085443085442085441085442087443086443086444000000086459086458086458086458000000000000000000000000086460086459086458000000000000000000000000)))
 (.node 2 (.node 1 (.leaf 86469085469086468085467086467087467087468087469087478086477085478086475086477088475088477088478086483086483086483085483087482088481087482087483087523086523086522086521000000087522086522000000086553085553084552085551085552087551086553087555085593085593085592084591086591086590086592086592086605085605086603085603087603087603088604088604086613086613085612086612087612088613087612088614086628085628085627084625086626086625087627086627086631084631084631084630086629087629088630088631087122087121086121087119087120088118088119088120087127086127087127087126087125087125088126087128087165087164087163087163088162089163089163088163087195087196087195087193087193089194089195089196087371085373087370086369088370088369088370089371088414087415086415087414087414088414088415089415087436000000000000000000000000000000088435088436088455086455087454087453088453089453089454000000087472087472087472086470087470087471087471089472087498086498087498086496087496088496089498089499087501087501086500086499088500089499088500088501087518086518086517086516087516087516088517087519087524087525087523087523000000087523087523088524087540087540087540087538087538088538088539088542087137086136088136087136088136088135088137088137088139087137086136088136087137088137088137088139088142087142087141087140088140088140088141089142088159088159087158087157088157089157089158089159088357087357000000000000000000000000000000000000089392087393087392088391089391089391089392089393088406088406087407087404088404090405090406090406088409087409087408087407089408090408090410090410)
 (.leaf 88448087446087445086444088446088445088447090448089454088454088453088452089452089452090453000000000000088455088454088453089453090453000000000000000000000000088456088455000000000000000000000000088492087492088492088492088492089490000000089492087510086511087509087508088508089508089509088510087514086515086514086513087512089512089513088514088536086536087535087534088534089534089535089536088543088543088543087541088543088543088543088543088559088560088559088559000000089559000000089559088569088568000000088566088567089565089568090568088596086596086596086596088596088596088596088596088606087606088604088604088604089604089605089606088628088628086628086627087627089626088628089628088119088119088118088117089117090117089119090119089131088133087131087130089129089130090132089132089158088158088157088156089156090156090157090158089174088174089174088174090173090174091175091175089186089186089184088184089184090184089185090186088214087214087213088213088212090213089213090213089379089379089378089377089377089377089377089378000000088385089384089383090383090383090384000000089471087471087471087469089469089469090470089472089483088483087483089481089481089481089482090483089533088533088532088531089531089532089532090533089580089581089580089580089580000000000000090580089595089595089593089593089593089593089593090593089612088614088613088612088611090610090611089613088624088624088621087620089622089621090623090624088626088627088626088625089625089624090624089626090113088114089114000000000000091111090113091113090117089117088117088115090117091115090117091117))
 (.node 1 (.leaf 91154089154089153088152090152090152091153091154090171089171090169090168090169092169091170091171090176090177090176089174091175091176092177092177090186089186089185089184090184090184091185090186091223089222090222089222091221092221000000000000090361090361089360090359090359091359091360091361090442088443089441089440090440090441090442090443090450089450089449090448090448090448091449091450089468089467089466089465090467090466090468090469090485089485089484089483090483090483091484091485000000090525088524090523090524092522090524090525090527090528090527090526090525091525090527091529000000089536089535089534090534090535090536090536090605089605089604090603091603091603091604091605090627088628089626088626089626090627090628091627090147089148089148089146091147092147091147091149091182091182091180090180092180092180093180093180092206089207091205091204091205092205092206091207092220090220090217091217091218093216092219000000092221091221091220090220092220000000000000000000091400090400090399090398091396092398091398092400000000000000090453090452091452093452092453092454090481089481089480089480090480091480091481091482090482089482089481089480090481091481091482091482090491090491090490089489091489091489091491091491092564089564091563091562091563092561092562092565091603091603091602091600091601091601092602092603091618089619090619090618091618091618092619093619092111091111000000000000000000000000000000093111092127091127091126091125091126092126092126092128092136092136091135092135093135094134093135092136091144090143091144090143092143093143092143093143)
 (.leaf 92159091159091158091157092157092156093158092158091193091194091193092191093191093192092192093192093216091215092215090213092215094214094214094216092363091363091362091361091362092362093362093365092402090403090402091402092402092401093403092403092450091450091449090448092448092448092448093448092502090502090501090500092500092501092502092502092559092560092559092558000000094559094559094559000000092578092578092577000000093575092578092578092154092154093152093152093152095152093152093154094167093167093166093165094166094166094167095167093187092187092186091186092186093186094186093187092205092206092205092204092203094204093204094206000000000000000000092454093454093453094455000000093468091469093468093468093468094468093468094468092494092494092493091492092493093493093494093494092524092523092522092521093523093523093523094523093525092525092524092523092524094523094524094527093575000000092576093575093575095573093575093575093599092599093598092597093597093597094598094599092614092613091612091612092611094613093613093613000000092623093623091622093623000000000000000000093642093643000000000000000000000000000000000000094148092147092146093146094146094146094146095146094157092156092155092155094155094155094155095157000000000000000000093218094218095218000000000000094538094539093539094537094538096537094538094539094544094545094544094543094542094543094544095546095557093558092555092555094556095556095557095558093583000000093583093582094582000000094582094583094601093601093600093599094599094599094599094600000000094620093619094619094620094619000000000000))))))))
 (.node 64 (.node 32 (.node 16 (.node 8 (.node 4 (.node 2 (.node 1 (.leaf 95125094125094124093124094124096123097125095126095136094136093135094134096135097135096135095137096173095171095171094171096171096171096172097173095181094181095181095180095181097179096180097182095186094186093186093186094186095185095186095187095343095344094342000000000000000000096342097343096357095356095356095356095356096354096357096358095399094401093399095398096398000000096398095400095411095413094412093411095411096411096412096413095443095443094442000000000000000000000000096443096474093475095474095473095474095473000000096474095485095485095485093484095485096483095485095485095497095498093496093495094496095496097497097497095513095514095513094511094511097511096512097514095531094529094528095529096528096529096530096531095547094547094546094545000000095546095546096547095558095557094557094556095556096556096557096558095572094572095570094570095570097569097570097571096594093594094592094591095593096591096594097594000000095115096115095113096113098114098115098115096162095162096161095160096160098160097161097162097167096166096165096165097165097165097166097167096177095177096176096175097175098175097176098177097208095207096207096207096207098206098206097207097213096213096212094211096212096211098212000000096351095351096350096350097349096350096350096351097385096384096384000000000000000000000000000000096449096448096448095445096447096446097446097449095480094481095479094478096478096479096480096480096527096526096525096524096525097525097526097527096531095531095530096528096529097529097530098531096538094539094538096537096538098537097537098539)
 (.leaf 96547095547095546000000095546000000097546097547000000000000095558095557096557097557096557096558097603095604096602095602096602098602098603098603097140097140097140097140096139099139098141098142097156097155097155096154097154098154097155098156098177097177096177096176097176098176099177099177097183095185097183097182097181097182098182097184096194096194096193097191097192097191099193097193098206097208096207095205097206098206099206099208098407097406096404097404097405099404000000098407097443096443000000000000000000098443097443098443097498097498097497097497097496097496098497098498097512096512097511097511097510098512098513098514097526097525096525096524097524098524097525098526097546095546095546095545097544099545099545099546097605097605097604097603098603000000097605099607097614095614096613097612096613098612097614098616098115098115098115098114098113099115100115099115098125098126097124098124098123100124098125098126098186097186097185097184098184100185099185100187098200097200098200098199098198099198098199098200000000097409098407098407098407000000000000000000097433000000096432096431098432099430098431099432098495096496096496096495098495100493098495098496098504098504098503098502098502099502099503098505098516097516097513097512098514099514000000099514098531098531097530097529098529099529099530099531098541098542098541098540099541099541000000099541000000098568098568000000098567099567000000100568099152099151099150099150099150100150099150099151099159099159099158098157099157099157100158100159000000000000098211099210100209000000101211000000))
 (.node 1 (.leaf 99415099416099416099430097429098429098428098428099428099428100428099434097435097434097433099432101432100433100434100449098449099447098447099447100445100448101448099552098552099551099550099550099551099552099553100594099593099593098593100593101592101594100595100144099144098143099142099143101142101143100145100161099161099160099159100159102159100160101161099168099168100166100166100166101166101167101168101197099196100196099196101196102195102195101196101353100352100352100350100350102351102351101352100423099423099422099421100423101423100423100423100438098438099437099436101436102437102438102439100473100473098473098473100471100472100472101473100481098482098481099479100479100479101480101481100516099514000000099514100514101514101515101516099550099549099548099547099548102548102548100549099558099559099556000000100557100557100557100558100589099589098588100586100587102585101586101589101138099136099136101135101134102136101136103138102165101165100164101163101163102163102164102165102207100207101205101204101205103204000000103207000000000000100359100358101358103357103358101359102432101432100431099430102430102430103431102432101443100445099444100441102441102441102442102445101488100488100487101487101486101487102487102488101495099496100494100493101493101493103495103495101502099503099502099501102500102500102501103502101513100513100512101511101511101511101511101512100519100519100518100517100516101516101517101518100521099521099520100519100519101518101519101520100521099521099521099520100520101519101520101521)
 (.leaf 100532100532100531100530100530101530101531101532100533100533100532100531100531101531101532102533101560099562099561100558100559102560101560101560000000000000100568000000101567101567101568101568102161101161100160102159102159103159103160103161102185102185102185102184103184104183104185102185102351102351102351101349102349104350104350103351102414101414101413000000000000000000000000103414102426101426100426102426102426102425102426102427102491102492101490101489102489103489104490102492101517100518100516101516101515102516102517102518101519100520100519100518101517102518102519102520101527100527101526100525101524102525102526102527102533100533100532100531101531102531102532102532102549100549102548102548102547103547103548103549102593101593102592101591102591103591103592102593102610102611000000000000000000000000000000102611103152103151103150103149103150104150103151103152103162102162102161102160103160104160103161103162103174102174102173103172103172103171103172103173102191101191102189103188104188104188103190104190103351102351101350102349104350104349104350103352103452102454101453102452104450104450104451105453103470101472102469102468103468105468104469104470102480102480102479102478103478103479103479103480102488102487101487102485102485103486103487103487103506101506101506103504103504104504104505104506102524101523101523101521102521103522103523103523102527101527101526101524102525103524103525103526102528101528101527101526102526103525103526103527103541102539000000102537103539000000103540104539103547102547000000000000102546000000104546104547)))
 (.node 2 (.node 1 (.leaf 103588102588103586102586104585105584104585103588103171103171103170104169105168106168106170106170104198104199103197103196103197104198104198105200105205103205103204102203104203105203105204105205104416102416102416103414104414000000104415104416105444104443104442104441104442106441106442106443104473103473103472103471104471105471106472104474104503103503103502103501103502104502104502104503104534102535102534102533104532104533104534105536103540103540103539103538103537105538104538104538103564103564102562102561104562106562106563105564105581104581103581104580104580105580106580106580103593102593103592103591104591104591105592104592104597000000000000103595103595104595105596104596104613104613104613104612000000000000000000105613105118104118104117103116105118106116105118105118105158104158104157103155105156106156106157106158105186105186104185104184104185107185106185105186106431105430105430104428106429000000000000000000105432105433104431105430106431000000000000107432105451104451104450000000104450107450105451105451104490104490103489104488104489105490105490105491105500104500104499105498105498105498106499105501104524103524103523103523105523105522105523105524104547104546000000103545000000105546106547105548105553104555104552104551106552106551106552106553106560104560105558105557105558106556000000106560106585105584105584105583106583107583107584106586106142105142105141105140106142107140106142107142107150105148106148105148107147108147108147108149106160105160105159105158106158106158107159107160107167106166106166106165106165107165107166107167)
 (.leaf 106189105189105188105187107188107187106189106190106205105205105204105203106203108202108204107205105380000000000000000000106378106377106379106380106448104450106448106448107447108446107447108449106472106472105471105470106472107472108472107472106503104503104502104502105501106502108503108503105521104520104520104519105519106518106519106521106528104528104527104527105527106526106528106529107177106177107175107174107175108175109176108177107177107178107177106177107177108177109177109178106367000000000000000000107363108365107365108365107441106441107441106441108440108441109440109442107455105455105455106455107455108455107456107456107475106475106474106473107473107474107475107476106482105481105481105481107481107480108482107482107493106493106492105491107491107492107493107494106498106497105496105496106495107497107497108497107513105513105513105512106512108511107512108515107516106518106517105515107514107515107515108518106550105550105549105549106548108549107549108549107555000000106554106553107553108555108556107555107589106589107587107586107587109586109587109588107120107120000000107120108118108118000000108120108126108127000000000000000000000000109127000000108192108192107191108190108190109190108191109192000000000000000000107381108381108380109382000000108434108434107431000000000000000000108432109432108448108449107447108446109447110447110448110448109462107460106459108460108460110460110460109462109503108503108503106502109502110502110503110504109508107508108508108508109507109506109507108509108578107580108578108578108578110577109579110579))
 (.node 1 (.leaf 108591106590107590107589109588108589109590108590000000000000000000108641108641000000000000000000109153109153109151108151110150110151111151111151109165107165109164108163109163111163111163110165000000000000109206108205109205111204000000000000109487107488108486107485108486109485109487109488109548108548000000000000109546110546110547110548110576108575109575109575109575111574111576110577110593108593109593109593109593110593110594111594000000000000108616109616109617000000000000000000110139110139109138109137109138112138110139110140111151109152110150109150110150112150111151112151110159109159109158108156110157112157112157111159111163109163110161110161110161111161111162111163111201109202110201110200111200112200112201112201111203109204110202109202111201112201112201111204110348108349109347000000000000111346111347110348109451109451110451110449111450112449111450110452110462109462110460110460110460000000111459110461110476110477110476109474000000111474111475110477111501110500109498110499110499110498111500111501110569110569108567108566110567111567112567112569110574109574109571110571110572112572112572111574111188109189111187111187110186113187112187113188112200111200111198111197112198113198113199112200111361111361111361111360111361111360111361111362111371110371110370110369111369112369112370112371111376111377110377110374111374111375112375112376111442111442000000110440111440111440112441111441111448111447111446110446111446113446000000112448111470111468111468111468111468111468111468112470112481110482111480111479111480111479112481000000)
 (.leaf 111488109489109488109487111486113487112487113488111515111516110514110513111513111514111514111516111547110547110546111544111545112545111545111547112559110560109558111557111558112558112559112560110584110585110584109583111583113582113584112585111599000000111597111596112596112597112598112599112137112138112137112136113135113135113136113137112352110354111353111350112350113352112352113352111375111374111373000000111373112373112374112375113455111454112454111454113454114452114455114455111471110472111470110470111471112471112471113471112492111492112492112491113491114491113491114493113507111507112507111505113505113505114507114508112517111517111516111515111516112515113516112517112571112570112570112569112569113569113570114570113590112590112589112588112588113588113589114589113159111159113157113157113157114157115158113159114175113175113174112174114173115173114175115175114179112179113179113178114178115177115178115179112442111441112441111440112440114440113440114442113511112513113511111509113509114509115510114511114577113578113576113575113576113576114577114578113595113595113594112593113593114593114594114595113596113596113595113594114594114594114595113595114140114141114140113138114138114138000000114140113159113159113158113157114157115157115158116158115185114185114184114183114184116183115183116185114189114191114189114188115187115187116189115189000000114199114198114197115196116197115198000000114344112345112344000000113343114342114344114344114371113371114370114368114369115369115370114371113377112377112377112376113376114376114377115377))))
 (.node 4 (.node 2 (.node 1 (.leaf 114447113447113446113445114445115445115446114447115465112464114463114463115463115463114463115465115484114483113482113481114481116482116483115483115487113486114486114485114484116484116486115486115502113503114501113501114501116501116501116502114523000000112520113519115519114520114521114521114558114557114556113556115556115554116557115558114571113573114571114570115571115571116571116572115584114584114584114583115583115583116584116584115591113591114589113589114589115589115590115591116158113159115158114157115157115156117158116159115169114169115167115167115167116167116168117168115446114446114445114444115444116444115445115446115475115476115475114475116474117474117474117476115495115495115494115493116493116493116494116497115539115541115539115538116537000000116538000000116554115553115553115552116552116550117553116554114564113564115563115563114562116563117563116563115592114592115591114590115590115589115590115592116149115151116149115149116149118149116149116150116174116173115173116172116172118171118172118172116196116195116195116194117193118193117195117196000000000000115198116197117197118197000000000000116341114342000000000000000000000000117340116342116356116357115357115354117355118355117355118358117365116365116364116363117363118363118364118364000000000000000000114388116389116388117390000000116433115431116431115429116431000000117430117431115445115445115444115443116443117443117444116445116460116461116461115458115459117458117459116460117486115486116486116484117484117484117485118487117491116491115490115489117489117489117490117491)
 (.leaf 116501116501115500115499115499116499117500117501117509116509116508116507117507118507118508117509116511116511116511116509117509117509117510117511116538116537000000115536116536116535116535116537117547115547115546116545117544116545116545117547116547116548116547115547117547117547117548117549116554116554116553116552116550118551117551117554117133116133117133000000000000000000000000118133000000117145117145116144117144117143117145117146118172117172116172117171117171119170119171119172117182117181117181117180118180119179119180119181118193117193117191116189118190119189119190119192118351116353117351117351118350118351119351118351118355117355117354116354118354118354118355119355118363117363117363117362118361119361119362119363118364117364117363117363118362119362119363119363118367116367117365117364118364119363117366119367000000000000000000000000000000117426117427117427116446115446115445116444117444117444117445117446116446116447115446115445116445117445117446117447117458115459115457117457118456119457118457117459117466116468116465115465117466119466117466117466117520116520115519116518116518119518117520117521118562116563117561117561118560119561118562119562118568116569117567116567117567118567119567119569117572117572117570117569117570119569118571119571000000000000000000000000117603000000000000000000118135118136118134117133118133000000118135118136117146000000000000117145117145118143118145118146119167118166117166118165118165119165120166119167119182118183118182117182119181000000000000000000119360118360118359118358118359119359120359120360))
 (.node 1 (.leaf 117373117373116373116372117373118372118373118373117378116377116376117375117375118375118377118378118380117380118380117378117378118378119379119380118388117388117387118385118386119386119387118388117447116446116446116445117445118445118446118447118470116470116470117470117470119468119469118471117574118573118573118572119572120572119572120574118141118141119141117141120140121140121141121142000000119185119185000000000000000000000000000000000000000000000000118197119197119196000000000000119340119341000000000000000000000000000000120340120349118350118349119348119348120346120347120348118371117371117370117369118369119370119370119371118377117377117375118374118374119374119375119376119380118380118379117378118378120378119380120380118392117392117391117391118390120391119391119392119406119407119406119405119404119405119405121408119415117416117415118415120414000000119415119415119437118437118436118435118436119437119437120439119459118459117459118457000000000000000000000000119479118481119479118477119477000000120478120479120508119508119507119506119506121507121508120508119542119543119542000000119542121541120541120542119550118552118551117549119550120550121550119550119583119583118582119580119581121580120582120583121167119167120166119165120165121165122165122166120194118196119193120194000000000000000000121194119368118368119368120367120367120366120367120369119373118373118372118371119371120371120372120372119389118390118389118388120388121388120388120389120399119399000000000000120399120399120399120399119468118467118467120465120467121465121468000000)
 (.leaf 120482118483118482119482119480120482122483120482119492120491120491119489121490121489120491122491120495119497120495119495121495121495122495122495121516119514120514120512121513122512122514122515121517119516120516119514121516122515122516122517121528118528120528120526120527122525122527121529121570119572119571120569120570121570122570121572120585120584119584119583120583122583121584121585119600119601119600120599120599121599120599121599121138121139121138121136122136123137121137123138121142119142121142121141122140121141121142121143121357121357120356121354121355122355123356123356120372119372119371119370120370121370121371121372120395119395121394119393121394122394121394122396120451120451119450119449121449121448121449122451121478120478000000119477120478121478121478122478121509121509120508121508121507122507122508122509121522121523121521120520122522123522123522122522122165121165122164121163122163123163123164124165121432121432000000121432122432122432122432122432122510121510121509121508122508123508122510122510123522122522122520122519123519124519124520124521122593121593121592120592121592122592122593123593123164123163122163122162123162123162124163125164123336000000000000000000000000123335123336123337123356123356122355122354123354124354125354125355124359123359000000123358124359125359125359125360123360122360123359000000124359125359125360124360123374121375121374121372122373124372124373124374123438121440121438122438123438123437123438123438123444122444122443122442122442123442123443123444000000000000000000000000123457124457000000000000)))
 (.node 2 (.node 1 (.leaf 123465123466122466123464123463000000123464124465124476122477123475122475124474125474124476124477123488121489122487123486123486123486123488123489122503122502122501123500123500124500123502124502122504122503122502122501123501123502124502123503123550122550123549123547123548124548125548125549123563123562123561123560124560125561124562123563123571121572121572122571122570124571124572123572122584122584122583122582124581124580123582124584000000122603122602122601123601124601000000000000000000000000122149123149123149124149124149124150125159124160123159124157124158125158125159126160000000124344124344123341124343125343124343126344124346124347124345124345124344126344125345125346125354124354123354123353124353124352125354126354124384123384124382124381124382124382124383124384124405124405124405122404123404124404125404125405124412122413122412123412123411125410124412125412124448124447124447123446124446125446125447126448123451123451122449124448124449125449124450124450124457123457123456123455124455125455125456125457125472123471124471123471124471125471000000000000125521124520124519124519125519126519126520126521125535123534124534123534125533126534126534126534124552124553124551124550124550125550125551126552125349124349125349124347125347127348125349125349126361124360125360125359126359000000127361127361125377124379123376124375125375126375125377125377124400123401124400124399125399125398126400126401125404123404123404123403124404125403125404126404125417124419123417125416000000125416126416125418125478125478125477125477000000125477125478125478)
 (.leaf 125487123486123485124485125485127484126484126487126519125519124518125517126517126517126518127519125526124524124523125524126524126524126525127526126529125527125526125526126526127527127527127529124568123568123568123567124566126565125567127569125574123572123572124572126571126572125572126574000000126140126140000000000000000000000000000000126143126143126143125141127142128141128143128143000000000000126198125198126196128197128199000000126336126337125335125334126334126334126337126337126366125366126365125364126364127364126366126367126374125374125373124373126372127372126374126375000000000000125471126470000000000000000000000000127492126492126491126490127490128490127490128492127542126541126541126540127540128539127540127541127557126557126556126555127555128555128556128557125565125566126564126563127563128563127565126565125579125580125579125578126578126578127579126579127597125596126596126595126596126596127597127598127357126357127355127354128354129354129354128357126372125372125371125371126370127370127371127371126381126382126381126378127380128380127380127382000000127389127389126388127388128388127389127389128437125437127435127435127436128434128435128436127455126455126454126453127453127452128454128455126458126458125456126456127456127455128457127457127519127519126518126517127517127517127518128519127525126525126524127523128523129523128524128525128539127539127537127536127535129536129537129539126552127553127552127551128551128550129551129553128556127556127555126553127553128555129554128555126584126585126584125582127583127582127583128585))
 (.node 1 (.leaf 128161127161126160127159128159130158129160128161127371127370126370127368127368128370128370129370127389127389127388127387128387128386129388129389127401126402126400127400127399128400128400129402128410126411126410126409127409128410128410128410128446128445128444128444128444129444128445128445127448126448127448127447127447128446129448128447127457127459126458126456128457128456128457128458000000000000000000127460128460128459000000000000129486127485128485127485129483000000000000000000128504128505128504128504129503130503129503129504128512127512127511127510128510129510128510128512129526128526127525127524128524129524129525129526127566126565126565127565127564129565128565128567128573126572126572128570128571130570130572129573128589128590126589127589128589130587128590128591000000129142128141000000000000000000000000000000129152127151127150129150128149129149000000129151128156128157128154000000000000130153129155130157129333129334127333127332128332130331129333130333129347129348129347129346130346131345130346130349129394129393127392127391128391129392130393130394128415128416128415128414129414130414129414130416000000129483129482128482000000000000000000000000129496129495129494128492128493000000000000131495130498129498129497129496130496131495131497131498128514127514127514128513128512129512129513130513130579128578129578128578129578130578131578131579131145129145130145130144000000000000000000132146130153000000000000128153130151131153130153130154000000000000000000129164130164132163000000000000129357128358128358129357129357131355130357130357)
 (.leaf 129359128360128359128358129357130357130358130359129381128381128381128380129380130380130381130381129388129389129388128386130387131387131388130389130400128400128398129398129398130397130398130399129512128512128512128510130511130511130512130512129513128513128512128512129511130512130512130512129517128518129517128515129515131516130516130518130522129522128521128519130520130519131519130522130544128545130544130543130542131542130544130545000000000000130164130163131163131163132164000000130331129331000000000000000000131328131330131330132340131340131339131339131339132339132340000000131351131352131351131350132350133350133351133352132377131377131376131375131376132376132377132378130389129389129388129388131388131388131389131389130410129410129409129408130408131408131409132409132418129418129417131417131417131417133417132417130525130523129524130523131523131522131523131524130568130569131567131566132566131567133568131569132594130595131593130593131593133593133593000000000000000000000000131595131596000000000000000000132366132366132365132365132364133364134365134366132554131554131553131552132552132553134554133554133564132564132563132562133562134563134563133565133574132573132572132572132572134570134573133574133583132583131581132582133581133582133583133584133586131586132586131586133585134586133585134587133150133151132151133149134149135148135149135151133344133344000000133342133342133342133344133344134351133350133349133349134349134349134350134351134353133353133353133352134353134351000000134353132394131394132394131393133393134393133393134395)))))
 (.node 8 (.node 4 (.node 2 (.node 1 (.leaf 133403131402132402131400133401133400133401133402133469132469132468131468132467135468134470135470133501133502131501131500134500000000134500133502134535132536132535133534134533134534134535135536134537133537133536132536134535135536135536135537134549133548133547133546134546135545134548133548133588133589133587133586134587000000133588000000000000000000133164134162134163136162135164000000134361132362133360132360133360000000135360135361134367134367134366134365135365135365135366135367135382133380134380133380135380136379136381136382133396132396132396132394134395135395134395134396134453133453133452134450134451134451134451135453134504134504134504133502134504135504000000000000134506134506134505134504134504000000136505136506134519133519133518133517133517135519135520136520135552134552133552134551135551136550136551136552135565133565134563134563135562136562135564136564134577133575134576133575135574134575134575134577135338133338134337134334135336135335137336135337135407133408134406134405134406135407135407136407134416134417133416135415135415135415135415136417136446135446134443000000134443135443135444136446134531134532135530134530136529137529136531137532136536135536134535134534135534137533000000000000136554134554135554134552136553136552137554137555136331136331136331136330137330137329137330138332136364135364135363135362136362137362136363136365137375136374136374136374137372138373138374137374135404134404134404135403136403136403136403137403135457135457135456135455136455137455137456137457136471136471136469136469136469137469136470136471)
 (.leaf 136526136525136524136524136524136523136524136525000000136538136537136536000000000000000000000000137546134546136545135543136543000000138545138546137572136571136570136570137570138570137571138572136162135163136162136161137161138161137161000000136340135340135339135339137339137339137339137341137341135341136340135340136340137341137341138341138373137372137372137371138371139370139372138372138389137389137388137388137388138388000000138388136416135415135415137414137414137414138415137415136432135431136432135429137431138431137431138431137512135513136513135511137510137511137512138512138519137519137519137518137519138517139519139519137567135566135565137564137565139564139564138567138348137348138347138346138346138345139347139348138356138356138356138355139356140356140356140357138376138377137375137374138374140374138375138376139383138383137383137382138382139382139383140383138385138386138385137385139383140383140385139387139402136403138402138401138401140401140401140401137416136416136416137415138415138414139416139417138426137426136426137426138426139426138426139426137456137457137456137455137455139455138455138457137469136470137469137466138468139468138468138469000000000000138476138475139475000000000000000000139157138157139157139156139155000000000000141158138348137348138348138347139347139347139347139348140371139370139369139369140369141369141370141371139413138413139411139411139411141411141411140411138447137446138446137445138444140445139445140447000000000000139475138475139475140475000000000000140555138556139554138552140554140552141554141555))
 (.node 1 (.leaf 140556139557139556138556140555141555140555141557140571137570138570139569140569141569140570140571000000000000139185139184140184141184000000000000140332139332140332140330140330141330141331142332140357139357140357140356141356142356142356141357141370140370140369140368141369142368142369142370140389140389140388139387141388142388142388141389140420140419140418140417140418141418141419141420140449138448138448138447140447140447140447141449139451139452139451139450140450140450140450140452139458138457138457138455139455141456140456141458000000000000139475140473140474142473141475000000140519140518140518140516140517142517142518141519141334140334140333140332142332142332142333142334142354141353141353140352141352141351141352142354141361140361141361139361142360143360143361142361142382141382141382139380141381142381142382143382141428141428141428141427141426141427142427142428140466139466139465140464140463141464142465141465141513141513140512141511140510143511141512143513141521140521141521141520142520143521141521141522000000142151141150000000000000000000000000000000142177000000000000000000000000142176142177143177142350140350141349140347142348142348142348143350142374142375142374142373143372143372143373142375143394142394142393142392143392144392144393144394142397142397142395142394143394144394144395144397143399141399142399141399143398144397144399143399141419141420141419141418142418142418142418142419141461140461140461140459141459142459142460142462141464140463141463140461141461142462142462142463143553142553142552141550142550144551143553144553)
 (.leaf 142570142571144570142571000000143168000000000000142168143168143167143168143169000000000000000000000000000000143171143171143172000000000000000000141183143183143182000000000000000000143368143367143367143367144367000000145368000000143369143368143367144367000000145368145368143401142401143401143399143399144399144400144401143404142404143403143403000000143403143403144404142467141467141465142465142465144465143465143466144523142523143523141522143521145523144522145524000000000000000000000000142602144603143603000000143162144161144161144160143159146160145160145161145394144393144392144391145392146391145393146394145430144430000000143428144428144428000000146431144453143453144451142450144451144451145452144453143458142458143458142456144457144456144458144458145512144511144510143510144510146509144510145512143517143518143515142515144516145514145517145518145558144558144557143557144555144555145558146558144560144561144559143558145559146559146560145560145327000000000000000000000000000000000000147328145337145338145337144335145337146337147337146337146341145341145340144338145338147340147340147340146342145343145342145341146341147340146341146342145370145370144369145368145368147368146369146370145374144374144373144372145372145372145374146374145383145382144382145380145381146381145381147382145400144400144399145398145398146398146399145400146560145560145559145558146558147559147560147561146176144175144174144173145173146174146174147174146178145178144177144177145177147178146178146178146343146343146342146342146341146342146342146343)))
 (.node 2 (.node 1 (.leaf 146366145364146364145362146362148362148364148365145400145400145399145398146398147398147399146400145411145411145410145409146409146408146410146410146423144424144423144423145423147423146423147425147512145512144510146509146510147510147511147512147360147359146359146358147358147357149359149360147391146391146390147388147389147389147389148391146393146394146393146392147392147392147392148392147434145434145434145433147432148432147434148434000000000000145464146462147464148464000000000000148568147567147566147565147566149565148567149567148601147601000000000000000000000000147600148600148336147336148336147334148334149334150336150337148348148348148348148346148346148346149349000000148367148367148367148366149366150366149366150367148380147380148378148378149376149376149379148380148399147399147398147397147397149397149398149399148408146408147407147406148406148405149405149406147413146414147413146411147411149412148412150413148445147445000000000000000000000000000000149445148453148452148451148450148451148451148452149453148564148563148562148560148560150560150562149564148184000000000000148182148182149182150183149184149330148330149329148328148329151329149330149330149351148351148348000000149349150349149349150351150373148372149372148370150370150370151372151372149399148399148398147397149397150397150398150399150421149420148419147419148419150420149420150422148513148513147512148511148510150511149511149512149568149567148567149565149566149565149566149567150191148191148190148189151188150189150190150191150193000000000000148191150191150191151192152193)
 (.leaf 150348148346149345000000000000151346150346150347150361149361150360150359150359152358151360150360151367150367149366150366151366152366152366152368150373149373150373149371151372152371152372151373150399149399149398149397150397151397151398151399150419149417148417149417150417150416150417151419150434148435149433149432150432151432151433151434150515148514148513148513149512150513150513150514151518150517150517150515150516150516150517151518151327150327151327151326000000000000153327153328152342150342151342151342152341152340151342152342151386151385150385151384151384152384152385152386151397150397150396149395150395152395151396152397151440000000151440151440151440152438151440151440152573151572151572151571152571153571153571152572152375152375152374151373152373152373152375152375152384151384152383152382152382152382152383152384151393150394151393151392152392152392152392152393152398151398151397150397151396153396154398153398152405151405152405151405153404154404154405153405152432151432151431150431151431153430152432152433153561151561152560152559152559152558000000000000000000152182153182153181000000000000000000000000153334151335152333153333153332153332153334154334153336151337152335151335153334154334154335153337153362152362153361153359153360154360153361154362153400152400152399152398153398153398153400154400154415152416153414153413154413000000155414155415153429152429152428151427152427153427153428153429153437152437152436152435153437154437153437153437154568152569152566153566153567153566154568155569153573152573152572153571153571154571154572153574))
 (.node 1 (.leaf 154192154192155192000000000000154326153326000000000000000000000000000000155326155354154353153353153350154352154352154352155354154359153359154357153357155357156356156358155357153389153389153388153387154387154387154387154388154405153405154405154404155404155403155404155405155412154412154411153411154411156411000000000000155414000000154413154412155412000000156413156414153424153424154423154422154422154421154422154423153429153429152428152427153427154428154429154429000000000000153520154518154519155519000000000000155571154571154570154568154568156569156570155570155332153332154331155330155330156330155332155333155347153348153348154347154346155346156346155348155366155365154365154364154364157363155364156366154389153389153389153387154387155388155388155389156413000000155412155411000000157412157413157413156515155516155515155514155514155513156515157515155557155558000000000000000000000000000000155558157340154339154338154337155337156338157339157340155346154346154346155345155344156345156345156346156379155379155378154377156377156376157376156378155382154381155381154380156380156379156381157382157417155417156417156416157416158415158417158418157436154436156435155435155434156434157436158436000000000000155519156518157518158517157519000000157192156192157189157189157190159189157190158192156348155348156346155346156346157347157347158347158383155382155382155380156381157380157381158383157394155395155393155393157392158392157394158394158415157416157415157414158414159415159415159416157573157574157573157573158572159573000000158573)
 (.leaf 158222160222158223158223157343156342156342157341157341158340158341158342157343156343156342156342157341158341158342158343158411158411158409158409159409159409159410159411159415158414158414158413159413160413159414159415159415158415158414158414159414159414159415159416160358159358159358159357159357160357161357160357159360159360158361158358159358161359161360160360159374159374159374159373160373160372160373161374159402159403159402159400160400161400161401160402159406158406159406158404159404159404159405159406159415159415159414159413160413160413160414160415159425158425157425158425158424159424159425160425159462158462159461157458159460161460160461000000000000000000000000000000160235161235160235160236161333159332160332000000000000000000000000000000160387160388160387158386161385161385161386161387161421159422160420160420161420161420161421161422162210160208000000000000000000000000161208162210000000000000000000000000161216161215161216162216162352161352161351160351162350163350163352163352161397161397161396160395160395161396161396162397162414160415160414160413161413161413161414162415160432160432160431159430160431162430161432162432161452159451161451159449161450163450162451163451162455161455161454159452161454162454162455162456000000000000000000160461161461000000000000000000163224162224162223162223162223163223163224164225163334162334162333000000000000000000163333164335162415162414161414161413161413162412162413163415161423160423161423161422162420162421162422162424161424161424161423160423161423162424162424162425))))
 (.node 4 (.node 2 (.node 1 (.leaf 163441160441160440161440162440163440164441163442163333162333000000000000000000000000000000000000164350163350162350163349164348165348164348165351164365163365163364162364164363165364165364164364162393162393161391162389163391164391163391164393162394162395161392162393162393164393163393164395162398162398162397161396162398163398163398164398163428163429162427162426163426163426164427164428164444163443163442163441163442163442165443165444165336164336163335164335164334000000000000166336165346164347164345164344164345166344166345166346165348164348164347164347165346166346166348166348165366164366164365164364165364166365166365166366163381162380163379163378163378165378164380165380164427163427163426162425163426164426164426165427164454164454163453163452164452166452166453166453164207163207163206163206164205000000165206166206165220164220164219164218165218166218166219166220165225164225164224164223165223166223166224166225166336165336165335164334000000000000000000000000166352165352165351165351166350167350166350167352166364165364165362164360166361167362167362167363166406165405165405165403166404167404166404166405165427164427163426163426164426165426166426165428166434165434163434163433165434167432166433166434166448164447165447164447166446167446167447167448165608165609163608000000000000000000000000165608166213165215164212164212165212166212166213166214166221165221165220164219166219167219167220167221166239166238165238166236166237166236166237166238167340165339166339166337167338000000000000168339167367166367166366166365167365000000000000000000)
 (.leaf 166415164416164416165415165415166414166415166417165419164419164418164416166415166417166417166418165420164421164419164419165419166418166419166420165426164426164425164424165424166425166425166426000000000000000000166458166458167458000000000000167221166221166220166219167219168219167220168221168341167340167340166338000000000000000000169340167346167345167345167343167344168344169345169345168369167369167368167367000000000000000000000000167376167376167376167375168376169376169376167377166395165396165394167394167394167393168395169396168409167409167408167406168408168406169408168408167427165428166426165426166426167426167427168427167444166444167442166442168442168442169442169443168454166455166454167453167453169452169453169454000000000000000000000000166563169562167564000000167232166233167230166230167230168231168231168231168232166233166233167230167231168231168231168232167242168241167241168240168238168239169241169242167245000000000000166243167243169244168244168245000000000000000000000000000000168246168247168248000000000000000000000000000000168248168249168250000000000000000000000000000000168251168252000000168370168370168370168369000000000000000000169370167422166420166420166419167419168419168420168421167427167426166426166425167425168425168426168427000000000000000000000000000000168596169597000000169224167224168223168222169222169222170223170224169234167234167234168232168232169233169233169234000000169354169353169352000000000000000000000000170355169355169354169353000000000000000000000000000000168356169356169355170355000000000000000000))
 (.node 1 (.leaf 169386169387169386169386170385170384170385170386170402168401169401169399169399169399169400171401169405169406168406169403170405171404171405170405170409169409168408169408169407170407170408170409169410168410169409168408170408170408170409169410169441168441169439169438170438170439170440170441169218169218170217170216170216170216171217171218171227169227170227169227171225172225171226172228170382170383170382170382170380172380171381171382171393169393170391169391171390172391172391172392170440169440170438169438170438170437170438172440171454170454170454170453170453171453172454172454000000000000000000000000000000000000170588170589171205171206000000000000000000000000000000172205170208169208170206171206171205172205171207172209170222169222169221170220171220172220172221172222170251169251170251169249170249171250171250171251172391171392171390171390171390173389172391173392171396171396170395171394172394172394172395172396171406170406170405171405171404171404172405172406171411169412169410170409171409173410172410172411172212171210170210171210171210172210173209174211172242170242172240172239173239174238172240172241171256000000170255170255171255173255172255172256172382171382171381172380173380173380173381172383172417172417172416172415172415172415173416172417172424170424170424170423171423172423172424173424000000172561000000000000000000000000000000000000000000000000000000171595172595173595000000000000173236173236171233173234173234174234174235174236172244171244171242171242172242173242173243173244172244171245171244171242172243173243173244173244)
 (.leaf 173414172414172413172412173412173412173413175414000000173432172432171430173431173431173432173432173434172434173434173434173434173432173434173434174442172442173440172440174439175439174441175441000000000000173565173564173565174565175565174567000000000000172595172594173594174594174595000000174216172215173215174213174214174214176215175216175225172224173224173223173222175223174223174224174229174229173228173227174227175227174229174229175238174238173238173237174237176237176237176237174387173385173384174385175383175383175386176386174401173401174401174400175400175399175400176401174408172408174408173408174406175406176408174408173432173434000000173432173432174432174432174434174594173594173593174591174592175592174592175594000000000000000000000000000000000000000000175202174220173219174219174218175218176218175219176220175381175381175380174379175379176379176380176381174587175586000000000000175584175584175585176586000000000000000000174595175595175594176596000000176379175379000000000000000000000000177378177379176403175403175402176401177401177401176402177403176427175427176427174425176425177425177426176428177437176437176437176436176436177436177437177438177440176439176438176437177437177438178439178440177219175219176218175215177217179217179217177218178225177224177223176223177223178223178224178225177255177255177253177252177253178251179253179255177385177386177386175384178384179384179385178385177418177419176417177416177416177417178417178420178442177441177440177440178440179439178441178442177445177445177443177442178443178443179444179445)))
 (.node 2 (.node 1 (.leaf 177564178564177564000000178212178211178210178209179210179210180211180211179217177217177216178215179214179215180215179217179236178236178235178234179234180234180235180236178259177259176258178256178257180257180257179259178401177401177400177399177399179399179400178401178414176414177413177412178412178412179413178415180211178212179211179210179210180210181211180212180235179236179234179233180233181234181234181236179237178237179236179236180236181236181237181238180249179249179248178248180247181247180247181250180252178251179251179250180250181251180252181253180393179393179392179392179392181392181393181394180395179395179394179393180393181394181394181395179397178397178396179396180396181395180396180397178566000000177564178564179564180564180565180566179583179583179583178583179581179582179582180583180591179592179590178590179588181589181590180592180210179210180209179208180208181208181209182210181211180211179210180209181209181209182210181211181215180215179215180214181214182214181215181216181247180247180246180246181246181246182246182247180419180420178419178418180419180419180419181421180439179439180438180437180437180437181438181439180566178566179565179564180564180564180564181566181209181209180208180207181207182207182208183209180230180230180229180228181228181228183228181230181246181246181245181244182243183244182245182246181253181253180252181251182250183250183251183252180400180400180399180398180398181399181400182400180401180401180400180399181399181400182400181401181414179415180413180412182412182412182413182414)
 (.leaf 180445181444000000000000000000000000182589181590181589181588181589183588183589182589183244182243182242181242183241184241183243184243183251182251182250182250183249184249184250184251182386181386181385180384181384182385182386183386183393182393181393182392182392183392184392184392181400181399180398180398182397182397182399183399181405181404180403181402181403182402182404182404182406181408181405181404181405182404183405182407184211183210183209183209183209185209185209184211183236182236182235182234183234183234183234184236183243183242183241183240183241185241184242184243182263181264000000000000182262183263183263183264183381181381181381183380183379185379185381183382182397182397183396181395184396185396184396183397183427182427181426181426182426184425184426184427182567181566183565183565183565184565183566185567184200184200184200183200184198000000000000185202185206183207184206184205185204186205186206186207183258183259183258183257183257185255184257184258183422182422182421184420185421185421184421186422184426182426182426182425183425184425184426185426184438183438184437184436184436186436186437185438185441184440183440183439184439185439185440000000184252183252183252184251185251185250185251185251185258183259183258183257184257185257185258185259184267183267183266183265185266186266185266185268184273000000000000000000000000185271185272185274000000000000000000000000000000185278185279000000184383184382183382185381185380000000185382186382185413184413184412183412185411185412185412186413184420183419184417185417185418185416187418186420))
 (.node 1 (.leaf 184569184569184568185567185567185566186568186569186587185587185586185585186585000000000000000000186588185588185587185586186586000000000000000000186589185589185588185587186587000000000000000000187205186206186205186203186204188203188204188205187211186210186209186208187209188209187210188211186236184236184235185234186234187234187235187236186264184263184263184262185261186261186262187262186405184406184405184404187404187403186405186406000000186585186584000000000000000000000000000000000000186586186585186584000000000000000000000000185636184636186636184633186635186634187634187635186638184639186638185636185636188637187639186638186223186224186223186222186221187221187222187224186230186231186230185228186229188229187229188231186242186242186241186240187240187240187241187242187244185245185245185243186244188242187244187245186257185257185256186256186256187255187256187257187276185277185276186276187276187275187276187276187414187415186413185412188413188412189413189414188644000000187643187642187643187642188644188645189207188206188205188204189205189205189206189207187244186244186244187243187242188242188243188244187268186269187268186266188267188266188268189269188386188387187385187384187384190384189385190387188407187407186406186406188405188406189406188408188415186416187414186414189413189413189414188416188422188423188422188421189421190421190421189422187429000000187429188428188428188428189427188429000000000000000000188439188439000000000000000000189197188197000000000000000000000000000000191198188269187269187268187267188268190268189268189270)
 (.leaf 188272187271187270187269188269189270189270189271190436188437189435188435000000189434190436190437189649000000000000187648188648189647189649189649189215188216188215188213190214190214190214190216190218188218188217188216189215190216191217190217189219188219188219188218190218190217190219190220189223188224189223188222189221190222190223190223189232188233189232188231190231191231191232190233189391188391189389189388191389191388190390192391189396188396188395188394189394190394190395190397190638190639190638190636191636191636191637192639191197191198000000000000000000000000000000000000190214190214189212189212190211191212191212191213190240189241190241189239190239191239191240191241190261189261189261190260191260191259191260191261190272189273189271189270190270192271191271191272191275191275190274189274191275191273191275192275190393189393189392189391192391191392191392191393192425191424191424190422191422191422191424192424192645190644191644189642192642192642193644193646192235191233190234190233191232192233192233193235191284190283190283190282192282193282192282193284191397190397190397190395191395192395192396192397193640192641192640192639193639193638194639194642193229192229191228193227193227193227194228193228192233191232191231191230192231193230193231193232192243192244191242191241193242193242193242193243192250192248191248191247192248193247194249193248192251191251191250192248192250193248193250193251192276192275191275191273192274193274193275193275192285192285191286192285193285193284193285194287193386191387191385193385000000000000194385195386))))))
 (.node 16 (.node 8 (.node 4 (.node 2 (.node 1 (.leaf 194431192432000000193430193430193429194431194432193436192436192435193433193434195433193434194436000000000000000000000000000000193585000000000000193637193638192636000000000000000000000000000000194257192258193256193255193256194256194257195257194270193270193269192268194268194268194268194270194290000000192289193286195287195288194288195290193395192396192395192394194393194394194395195395193399192399192398192397193396194397194398194399193405193404192404193402193402194403194404194405194408192407192407193404193405194405194406194407193412192413193410192410194411194410196412196412194423194424194423194422195423194422195424196425195642194643194642194642194640196640195643196644195649194650193649194648195648000000000000000000195226193226193225194224195224196224196225195225195387195387195386194385000000000000196386196387194408193408194408193406194406195406195407195408194422195423194420193420194420196421195421196421194430194431193429194429194428196429195429196429000000194650195650195649000000000000000000000000195206194206195206194204195204197203196205197207195214194215194215195214196214197212196214196214195254194254194252194252196253196252196253196254195270194270194268194268195267197268196268197268195275194276195274194274195274196274196275197275000000000000000000195290196290000000000000000000196386195386000000000000000000000000000000197386195400194400194399194398195398196398196399196400196435195435195434195433196433196433196434196435000000000000000000196647000000000000000000000000197202197203000000000000000000000000000000198202)
 (.leaf 196209195209196206195206197207197205198208197207196228195229196229195228197228197227197228197229196234195234196234195231196233197233197233197234197386196386000000000000000000000000000000198386196401195401195400195399196399197399197400197401196402195402195401195400196400197400197401197402196403195403195402195401196401197401197402197403196435195435196435196434196434198434197434198436198220196219197219196218198218198217198219198220197221196221196219197219197218198219198220198221197272196272197272196270198271198271199270199273198389197389197388197387199388198387199388199389000000000000000000000000197438198439000000000000198224197224198223198222198222199222200223200224199229197228197227198227199227199227200228199228198241197241197241198238199238199238199240199240199396198396197395197395199394200394200397199397199405197406197405197404199403199403199406200405198411197412198411198410199410199409199411199411199414198414199414197413199414199414199414200414199224198225198224198222200223200223201224200225199240198240199238198238199238200238200239200241200264198264198263198263199263200263200264201264200387198387200387000000000000000000000000201387200394199394198394199392200392200392201393200394199411198411198410199410199409200409200410200410200423200424200424199423201422202421201422201425200260199259199259200259200259201258201259201260201260199260199259199259200260201259201260202260201387200387200386000000000000000000000000202387202428201428201428200428201428201427203429203429201226200226200225201224202224202224203225202226))
 (.node 1 (.leaf 201236201236200236201236202236202236202236202236202273202273202271200270202271203271202272202272000000202285202284202283202283203283204284000000000000000000000000202285000000000000000000000000202403200402200402200401202401203401204402203403202425202425202425201425203425204424203424203425203254201255201253201253202253203252203254203255202272202272202271202270203270204270203270204270202395202395201395201394203395204395203395203395203434203433203432203431203432203432203432203434204221203221204220203219204219204219205220205221205221203222203221204220205220205220205221205222203243202243202242202241204242204241204242204242203245202244202243202243203243204242204244204244204283203283204281203281205280205281205282000000204405204405203404203403204403206402205404206405203440203440202438202437204438204438205439205440204210203211204211205210204209207208207210205211204214204214203214204214205214205212205214206214205221204221205220204219204219206219205219205221204228203228203227203226204226206227205227205228204231204230203229203229204229205229205230205231204247203248204245203245204244205245205246205247205248204248203248203248204247205247205248206248205280205279204279205277205278205277205278206280205386000000000000000000000000000000205386206386206402204403204402203401205401206401206402206403000000000000000000000000205441206441000000000000205212205214204212204210205211207212206212206213206272205272204270204269206270206269207271206271207410206409206409206408207408208407207408207409206415206416205416206414207414208414208414208415)
 (.leaf 205435204435205434205433206433206432207432206435207644205643000000000000000000000000000000206643207214206214205214205212206213207214207215207215206235206234205234206232206232207233208233207234206254205254205253205253206252207253207253207254207268206266206265206264206265208266207266208266207281206281206280205278207279207278208280208281207234206235206233206232207233208233208234208235208237206237206237206236207236208235208237209237208239206241207238206237208237209237208239209239207263206263206263206262208262208262208262208263207272207273206271207271208271208270209272208272208405207405208403207403208403209403209404210405207409207408208407208407208406209406208408209408209412208412208412208411209412209412210411209412208437208436208436206435208435208435208436208437000000000000000000207441208441210441000000000000207614000000000000000000000000209613208613209615210390208390209390209390209390211390211390211390210394209394209394209393210391211391210394211395210395209395209394209394210393210394211395211395209400209399209398209398210397211397211398210400209403208403209401209400209401210401210402211403210420209420208420209418209419211419210420211421209623209623208622207622209623210623209623209624209629209628209628209626209627209626209627209629209224208226208224210224210224210224210224210224209255209255209254208253210253210252211254211255211280208280208278208277210278212278210278212280210425209425210425209425210425211425211426212427000000000000208615209615210613211615210615210616212221211221211220210220211220212220212221212222)))
 (.node 2 (.node 1 (.leaf 212247209248211247210247212246213246213247212247210256209257209256209255211255211255212256211256210455210454000000000000210453211452211454211455213215211215212215212214213214000000000000214216213245211244212244212244213243214243213245214245212384210385211383000000000000000000212384212385213398212398212397212396213396214396214397214399211452210453000000000000211451212452212452212453212642211642000000000000000000000000000000213642212232211232211231211230212231213230213231213232213245213244213243213243213243214243215244215244213249213250212248212247214247214247214248214249212277212278213276213275213276213276213276215277214405213404212404213403213403214403214404214405212421211421211421211419212420213419213420214422212427212427213426212425213425213425214426213426000000000000213439213438214437000000000000000000213622213623211622212622212621214622213622214624213647212647212646212645213645214645213647214647214248213248214247214246214246214246214248214248215264214263214263214262215262216262216263216264213269212268214267213267214267214266214267214268215392214392214391213389215391215391216391216392214393214394214392214392215392216392216392215393213428213428212427213426214426214425216426216428000000214435214435214434215433000000000000000000213453212453212453212452213452214453214453214454213617212617212617213617215616215617214617214618214626214626214626214626215626215626000000215626215259215260215259215259215259217258217259217260216392215393215392215391216391217391217392216392215611215612215612214609214609216609216610216611)
 (.leaf 215639000000213637213636215637216637216638215638215646213647214645213644214644215645215645215646216249215249214248214248216247217247218249216250217261216260215259216259217259218258217259217260216263216264216263216262216261217261216262216264216271214273214271214270215269217269216271216271000000000000215281216280216280217280000000000000216418214418214418214416216416217416217417216419215626215626215625215624216624217624216625216625217231217231217229216229217229218229218230219230216271215270215269215269216269217269217270217271217278216278217276217276217276217276218277218278217394216394217393216392217392217393218393217395217415215416216414215414216413218413217414218415216618216617217617215616218616218615218616218617217630216630000000216630216630217629217630217630216642216642215642215641216641217641217642217642217235216236216235216234218234219234218234218235219243218245217244218243218243219243000000220243218246217246218245218245219245219244219245219246219405218405217404217403218403219403218403220404218407218408216407217407219406219407220406220408219429218429218428218428219427219428219429000000218449218450217448000000000000000000219448219449218602000000000000000000000000000000000000219602217641216641216639216639218640219640218640219642218231218232219230218230218229221229221231220232219242218242218241219240219240220240220241220242000000219385000000000000000000000000000000000000219424219424219424218424219424220424221424220426000000219429218429219427219428219428220429000000219451219451219450218449219449220449219450219451))
 (.node 1 (.leaf 218458219456219457220457000000000000219611217612217611217610219609219610220610219612220653219652219651218651219651219651221652220653220225218226220224220224000000000000220225220225220242219242219241219240220240221240221241221242219247218247219246219245220245221245220247220248220388220389218388220387220386221386222387222389219397218398219397219396220396220396220396220398220403219403219402219401220401221401220402221403219620219621219618219617221618222618220619221619219624218623218623218621220620221620220622221622220627218629218627218626219625220626220627220628220631220631220631218630220631220630221632220632221240220240221239220238221238222238222239222240221255221254221254221252221253223253223254222255222256220257221256221254221255222255223255223255221268219269219269220268221266222268221267221268221390221390221390220388222389222388223389222390220402220402220401220400221400222400222401221402221614220614000000220614221612221612222615221615220626219625219625219624220624222625221625222627221646221646221645220644220644221644221645221646222240221240221239221238222238223238223239223240221403221403220402221401222401223401223402223403221409221410222409221408221408222407222408223408222425222424222423222423222423224423223424224424222451222451220451220449223450223449223450223451221604220603221601221600221601222602222602222603223231223230221230223228223229000000223229225231223240222240222239222238223238224238224239225240224252223253222252223251223251224251223251225252223256222256223255223255224255224254225256225257)
 (.leaf 223264222264221263221263223262223262225264223265223405222405221403221403223403224403224404224405224418223419223418223416223417224417224418224419223421222421223420223419224418224419224420224421223611222611222610222609224610224609224610223612223633221632221632222631223631223631223632224633224220223220223219000000000000000000000000226220224273223273222270222270223269224271000000000000224388224388223387000000000000000000000000225388224403223403223402223401224401224400224402224403224425224424223424224423225423226422226424226424224598222599222598222596224596225598224598224598225637224637224637224635224636226635225637226638224644224645224644223644225643226643226643226645223654222653222653223653224653225653224653224654225233224233225231225231225231226231226232227233225243224243224242224241225241226241226242226243225263225264223262223262225261226261226262225263225390225390225389224388225388000000226389227390225409223409224408224407224408225408225409226409225427225426225425224425226424227425226426227427225624223624223624225623225622225623225624225625225649225649225649225649226647227647226648226649226242225242225241226240227240228240227241227242225258225257225256225255225256227255227258226257226260225260225259225258225258226259226260226261226389225389225388000000000000000000000000226389227398225399226397225397227396228397228398228398225419225419224417224417225416226415226417227419000000000000000000225455226455227455000000000000226594225594225593225592226592226593226594226594000000224605224605225604226604226604226605226605))))
 (.node 4 (.node 2 (.node 1 (.leaf 227641226640226640226639227639228639227639228642227238226238227237227236227236228236229237228238227245227245226244226243227243228243229244228245227255225256226254226253226255228253227255227256227407225406225405225404227405228405229405227406227449227449227448227448227447228449229448229450226611225610225610226608227610227609227610228612227619225620226618226617226617228617228618228619228634227634227633227633228632229633229634228635226657225658226657226656227656227655227657227657228232226232227231228229228230229230228230228232228264226264227263226262227263228264000000000000229397228397228395228395229395230395230395229395227415226415226414227414227413228413228414229414228587227587228587000000000000000000000000229587229592227591228591227589229590229589230591229591228604226604227603227602228602228601229603228604228612226612226612226611228612228612228612228613228620227620227619228619228618228619228620228620229635228636228634228633229634230634230635230635229637228637228636228636229635230635230636230637228648228649227647228646228646230646229647230649230237229237228236229235229235230235230236230237229395229397228396229395230395230395231395231395229400229399229399229398230397230398231399231399228419228420228419227417228417229418229418229420230628228629229628228627229627230627230628231629230633229633229632229631229631230631231632231633228660228660227659227659228659231659229660230662231402230402230401230400231401232400232401232401230595230595230594230593230593232593231594231595230615228617228614228614229614232614232615232615)
 (.leaf 230627229627229626229623230625230624230625230626231634230635230634230633231633232633232633232634231635230635230635230634231634232633232634232635230642229642230642230640231640231640230642232643230665000000229664230662231662231663230663231665231230230230230229231227232228233227231228233229231404230402231402231401232401233401232401233403231407230407230406230405231405231406232406231408232424230425230424230423231423232423232424232425231589229589231588230587000000000000232588231589231595230595230594230593232593232593232594231595233240232240231239232238233238233238234239234240232257232258232256231255231255233255234257232258232608230606232605232605000000233606232606233606233612230611232610232609232610233610233611234611233238233238233237233236233236235235235236235237233245233246233244232243233243234243234244234245233404232404233403233403233402234402234403233405233648233648233648232646232646235647235648235650233652233653233652233652234651235651235652235653234658233657233656233656233656235654235656235657233661231663231662233660234659234659233661233661234219233219233218000000000000235217234219235219235232234232234231233231235231235231236231236233234256234257233255233254234254235254234256234256234416233416233415233414234414235414234417234417000000000000232425233424234424235424235425000000235618233617234617233615235616236616235618236618234630233630233629234628235627236627235629235630234639234640234639234637234637236638235638235639236231234232235231235229235230237230237231237232236394235395235394234392235392237392236393236394))
 (.node 1 (.leaf 236409235409235409234409236408237408237409236409236604234605235603235603235603237602236604237604236616235616235615235615236614237615236616237616236623234624235622234622235622237621236623237623235644235645235643235643235642235643235643237645236227236226236226236224236225236225238225238226000000236227236226236226237226238225238226238228237235236235236234236233237234238233238234238235000000000000000000235425236425000000000000000000236595236595235596236594236593238594237594238596237602235603235602236600236601237601237602237603237611236612235612236610236611238610238611238612236624236625236624236623237623238623238624237626236629235629236627235627236627238626237626238628236634235634235633236632236632236631237633236634237651236651236650236649237649238648238649238651237423236423237421236421237421237421238422000000237589237590236588000000000000000000000000238589237592237593237592236590237590238590000000238592238609236610236609236608237608237607237608238610237623236623237621236621238620239620238620238621238654236654237654237653238653239653239653239654237660236660237659237658237658238658238659237661238242238242238241238241238240239240240241239242239257238256238256238256238256239256239257240257238409238409237408238407238407238407239408238410238604238603237603237602238602238602239603239604237635236634236634236634238634238634238634238635239653238653238652238651239651239650240651239652239653238654238653238652239652240651239652239653238658237658238657238657239657239656239657239658239249239249238248238247238248239248239248239250)
 (.leaf 238407238406239405238404238404240406239406240406240414238414239414237412240413240412241413240414000000000000000000239665239666239664000000000000241222239223240221238220240221242221240221241223241225239223240223239223241222241223242224242224239256239256240255240254240254241254241255242256240415240416240414239413241413241413241414241417240594240594240594238593240594241592242594242596240658239658239657239656240656240656240657240659241235241235241234240233241233242233241233241234240401239401240401241398241398242398241400241400241597240597241597239595242596243595242596241598241607241606240606241604241605242605242606242607241628241628241628241627242627243627243628243629241635239636241635241635241635243635243635242635241639240639239640240639241639241639241639242639240654239653239652240651240652241652241653241653240656240656240655240654240655241654241655241656243223241223240221242221242221243221242221243223241229240229240228241228242228243228242228243228242590241590000000000000000000000000000000000000243609241609242608241607242607243607243608243609243616242617241616242614242615244614244615000000243635241635241634241633242633242632243634243635244235241235241234241233243234245234244235245236243241242241243241242239243241245240245241245242243397242397243396242395000000000000243397243398244613242612243612243611244611000000000000000000000000243618243617243616000000000000000000000000000000243622243621243620000000000000000000000000242630242629243629243628244627244627244628244629244603243601244601244600244601244601244601244601)))
 (.node 2 (.node 1 (.leaf 244625244625244624000000000000000000000000245650243649244649243647244647246648246649246649244656242657242656242655243654246654244655244657245225244225244224244223245223246223246224247225245236245236244235245234246234246234245235245236245249245249245248245248245247246247246248246251000000000000245416245416000000000000000000000000000000245663245662244662246661246662000000000000247226246225245225244223246224247224248225247226245236245236245235246234246234246234248234248235000000244254245254245253246253246253000000000000246410246409245409246407246408000000247409247410247412246412246410246409246410247410000000000000246414246413246413246412247412000000000000000000246647246648246646245645247646247645248646247647246655244655246654246653246653246654246655246656247216247217000000000000000000000000000000248216247403246403247403246403247403000000000000000000247593246593247593246591247591249592248592249593249232247233247232248231248231249231249232250233000000247403247402247401248401000000000000000000250224248225248224248223249223249222250224251225250240247241248240248239249239250239250240250241248658247657247657248655250656250655249657249657250215249215000000000000000000000000251216250215250650249650249649248648250648251648252649251650251235250235250234250233251233252233252234251235252234251234251233251232252232253232252233252234251240251240000000251238252238252238252239252239000000000000251245251244252244253244253245252246000000000000000000000000000000252246000000000000251644250644250643250642252641253641252643253643)
 (.leaf 251650251650252649251648251648252649252650252650252652250652251651251650251650252650252652252652252234252234252233252232253232254232254233000000254214252214253213000000000000255212254214254214254222254221254220253220255220255220256220255222000000000000255245254245255245000000000000000000000000255656255656255655000000000000000000000000255222255222256220255220256220257220256220257222000000256641256641000000000000000000000000000000256711000000254711254710255710258710257712256712260228258228258227258226259226259226260227000000259235259234259234258233259233261233260234261235260212000000000000000000000000000000000000260213260219259220261218260218261218261217261218261219266223266222000000266221267220000000268222267223265226000000265226265225266225267225267226267227267214266214000000000000000000000000000000267215000000000000000000268702269702000000000000000000271222271221271220270220271220272220272221000000273219271219271218270215272217272216273218273219000000272700272700272699272699000000000000000000275212274214274211000000000000000000000000276212276213275213275212000000000000277211277214276214278219000000277218276218000000278218000000278220278224277224278222278221278222279222280223279224279221279221278220000000279219280219280220280221280218279218279217280215280216282214281217281218000000000000281221282219282220283220283221283222283221282221282220282219283219285218284220283221000000056421057421057421058421058421059421000000085188084187084187084186085187085187085188085189089198088198088197089196089196090196089198089198))
 (.node 1 (.leaf 89480089480000000089480089480090479090480090481179426178426179426180425180425181425180426180426180427180427179426178426179426180426180426181427180426180426180425180424181424182424182425181426013296000000000000000000013294015294015295015296000000000000000000000000000000015207014207015207014292013292013291013290014290015290015291015292015200000000000000000000000000000000000000016200016218016217016217014214016216017216017217017218015285015283015282015281015282016282016283016285016288015288015285015284015285016285016286016287016290015290015289015288016288016287016288016290000000000000000000000000000000017323016323016324017191016193016190016189017189018189018192000000017205017206016206016205000000000000000000000000017217016217016216016215017215017214018216018217017246016248016245000000000000019244019245019246016283015283015282015281016281017281017282017283017305015304015303015302017303017303018304018305018206017206017205000000000000018204019205018207019309018309016308017308018308019308019309019310000000018218018217018216019216000000000000000000019236017237018237018236018234019235019236019237018238018238017237017237019236019237019238019238019250017250017249017249019248019249019250019250018254017254017253017252019251019251019253019254018255017255017254017253018253019253019254019255018256017256017255017254018254019254019255019256018257017257017256017255018255019255019256019257018258017258017257017256018256019256019257019258018259017259017258017257018257019257019258019259018260017260017259017258018258019258019259019260)
 (.leaf 18291017291017290017290018290019290019290019292019318000000000000000000019316020316020317020318020198019198019197000000000000022196021197021198020230019230019229000000000000000000021229020230019261018261018260018259019259020259020260020261019262018262018261018260019260020260020261020262019263018263018262018261019261020261020262020263021176020176021175021175000000022174022175022176020263019263019263019262020262021262021263021263020266019266019265019263020263021263021265021266020267019267019266019265020265021265021266021267000000000000020319020318021318000000000000000000021268020268020267020266021266022266022267022268021269020269020268020267021267022267022268022269021271020271020270020269021269022269022270022271021290020291020289020289021288022289022289022291022304021304021303021302021301023302022302023304022272021272021271021270022270023270023271023272022287022287021284021284022284023284023285023285000000023205023204024202024203000000000000000000024233022234024232024231024231024231024232024233023296022297022297022295023296024294024296024297023299022300023299022297023296024297024298024299023300022300022300023299023298024298024299024300023300023302022300022300023299024299024300024300023304022305023304022302023302024302024303024303024273023273023272023271024271025271025272025273024274023274023273023272024272025272025273025274024275023275023274023273024273025273025274025275025312024312025310025309025310026310026311026312025270024270024269024268025268026268026269026270025298024298024297024296025296026296026297026298)))))
 (.node 8 (.node 4 (.node 2 (.node 1 (.leaf 26276025276025275025274026274027274027275027276026277025277025276025275026275027275027276027277027311026311026310026309027309028309027310027310027568025569025568025568027566028566028567029570028259028260028259028257029257030257030259029259027278026278026277026276027276028276028277028278027279026279026278026277027277028277028278028279027280026280026279026278027278028278028279028280027281026281026280026279027279028279028280028281027281026281026281026280027280028280028281028281027284026284026284026282027282028282028284028284027290026290026290026288027288028288028290028290027295026295026293026291027291028291028293028295027296026296026295026295027295028295028295028296028561026561000000000000029559029559029560029561000000000000027585000000028584029584029585000000000000028246029246029244000000000000000000000000030248028248029248028246000000000000000000031248030249029249028248029248029247000000031248031249029554000000000000000000029552030552029553030552029572029572027572028570029572030570030571030572031250030250030249030248031248031248031249031250031255030255030254030253030253032253032254032255030266030266030266030265031265031264031265031266030539029539000000000000029537031537031538032539030552029552029551029550030550031548031549031552000000000000000000000000000000032120031120000000031270030270030269030268031268032268032269032270031534000000000000000000000000000000000000032534000000031580030579031578031578000000000000000000032253032253032252032251032251033251034253033253032267031267031266031265032265033265033266033267)
 (.leaf 32301032301031300030297033299033299032299032300000000031308032308031308032308000000000000000000032542030542032543031542032542033540033541034544032546031546031545031544033546033546033547033548032567030565031564030563032565033563033566032566033113032113032112000000033111034111034112034113033266032266032265032264033264035264035266035267033554033555031555032554033552034552034555034556033586000000000000000000032582033584034585034586034550032551033551033550034550035550034550035550034561033561033558033557034559035557035558035561034592033594033591033590033591035590035593034592000000000000000000000000034599035599034599035599034607000000000000000000000000035605035606035609035112034112034111000000035110000000036111036112034130033129033128033127035128036126037127036128035180000000000000000000000000000000000000036180036272035271035271035270036270037269037271037272035529035527034528034527035525000000036526036529034531034532034529035529035530036530035531037532035532033533034533034532034531037532036531036534000000000000000000000000035648036648036649036650036190000000000000000000000000000000000000037190036290036290036289035288036288036288036289036290036549034550035550035549037548037547038549038550036555036556035556035553037554037553037556037557036576034576035575034572036574036572037573037576036581035579034578035577035579036579036579037581036603035601035600035599036601037601038602036603036639000000000000000000000000000000036639037639037134037135035134035134037132000000000000038134036144000000000000035142036143038143037143038143))
 (.node 1 (.leaf 37191036191036190000000000000037190039191038191037202000000035202035202037200039201000000039202037257037257037257000000000000000000000000000000000000000000000000000000000000037511037513038513036516036516000000000000000000037516037516037516036533036531037532035531038530037531037531038531037583036583036582036581037583038583038584038585037592037592037591036590036590039590037592038594036659000000036658036657037657038657038658038659000000000000000000000000000000000000000000038039038047000000000000000000000000038045038045038045000000000000000000000000000000038051038051038053038200038199038198038197038198000000000000039200038260038261038260037258038258039258039259039260039273038273038273038271039272040271040272040273038301036301037300037299038299039299039300039301038494000000000000000000000000000000000000039494037614036614037614037613038613039613038614039613038646036646036645037642038644039644038644039646000000000000000000000000000000039057039058040060000000000000000000000000039175000000000000000000000000038196038195038194039194000000000000000000039204039205038203039202000000000000000000000000039207038207038206038205040205000000040206041208039259038259038258000000000000000000000000039259039263039263039262038261039261041261040262041264040275039275039274039273040273041273041274041275040276039276039275039274040274041274041275041276040277039277039276039275040275041275041276041277040278039278039277039276040276041276041277041279040280039279039278039277040277041277041279041279039406000000000000000000000000039406039406040406)
 (.leaf 39496038496038495038494039494000000040495039497039521039520038518038517039519039518039518040519038562038561037560037560039561040561040562039562039573037574037574038571039571040571039572040573039587039587038586037587038586041587040588039587038626038624038623000000039624040624039625040624038637038638037635037635039636039636039636039636038649038650038649037648039648040648040649040650040034000000000000000000000000000000040034041036040037000000000000000000040035041037040036041039040062000000000000000000039061040062040062040062040126000000000000000000000000000000000000000000041146040145039145038143040144041144041145000000041270040269040269040268041268041267041268041269041272040272040271040271041270042270042271042272041273040273040272040271041271042271042272042273041281040280040280040278041279042278042280041280041285040285040283040282040281042281042283041285040414000000039413039410040412040411041413041414040550038548038548038548040548040546041547040548040580039580039579039576040578040578042579042579040597039597039596039595040595041595040596040596040606040605038604038603040604041604041605041606040611039613039612040610039611041609041610041611039625039625039624039623040623041623040624040624040653039653040652038650040651041651042651042653040676038676039675038673040674040674041675041676000000000000000000038678039679040679040679040680000000000000000000000000041097041097041097041098041143040143040142040141041141000000000000000000041210040210040209041208041208000000000000000000041290041289041289041287041288042288042289041289)))
 (.node 2 (.node 1 (.leaf 42431041431042433040481000000000000000000000000000000000000041481000000000000000000000000041489041489041489042489041539040539041539040537041537041537042538042539042564040562039562040562041562042562041563042564040596040597040596040595041595042595042596042597041665041664040664040663041663041663041663042663041693000000000000000000041693042691041693042695041711000000000000000000041709041709042710042711042046041046041045040044042044043042044044043044042115041115041114041113041114042115042115043115042173041173041172000000000000043171043174043175042260041260041259000000042258044259044260044261043281041280042280042278043279044279044280044281041417042415042415042413042415043413043414042417042423040423040422040420042421043421042422042422042501041503041502041499042499043499043502043503042520041520041519040518042518043518043519043520041529040528040528041527041526042527043526043527042541041541041540041539042539043539043540043541043555042556042556040554042555043555043556043557041605041606041605041604042604043604043605044606042611041611041610041609042609043609043610044611041624040624041623040622042622042622043623043624042632042633041631041630043631043630044632042633042644041642041641042642042642044642044642043644042710041710041709040708041709042708043709043710042102042103042100043100043101043100043101043101000000000000000000042178042178043178043179044180043180042180000000000000000000044180043181044180000000042196042195042194043194043193044195044196043271042271042270042269043269043270043270043272)
 (.leaf 43300043299042299000000000000000000000000043403042403043402042399043401044401045402044403043479000000000000000000000000044477043479044479043518042518043517041516044516000000044517043518043539042539042538041537043537044537044538044539043579042579043577042577043577044577044578044579043605042605042604042603043603044603044604044605043663041663042662042661043661044661043662045662043709041709041709042707042707044707044708044709043004000000000000043003044003044002045002045005044044043044044044043042043042045042045043045044044071043073043072044071044071046069046071046072044110042112043109043108044108044108045111044111044113042115043112042112044111045111045112045113044128042127042126044125044126045126045127045128000000000000000000000000000000044154044155044156044215044216043214043213000000000000000000045215044266042266042266043264044264045264045265045266044407043409044407044407044407045407046407046407044440000000000000000000044438045438045439045440044537043537043536043535044535045535046536045537044577043577043576043575044575045575045576045577043589043589043588043587044587044586045588045589044611044611043610043609044609045609045610045611044641043641043638044639044639045637044640045641044707042707044707043705045707045707046707045707046066044067044066045063045065046065047065046065000000000000000000000000045142046142046143000000044152043152043151044151044150045151045151045152044167044167044164043163045165045164045166047167045173044175043174044173045171046173045173045173045265044265044264044263045263045263045264045265))
 (.node 1 (.leaf 45292045291044291045291047290000000000000045399044399044398045397046397046397046398046399045404044404044403045402046402046402046403046404046411044412045409045409045410046408046411047411046414043414045415045413045414047412047414047414045439043439044438044437045437047437047437046439045473044475044474043472045471047472047474046473045487045487044488045486046485047485045486046487044515000000000000044514045514046514046515045515045551044553045552045550044549047550046550045551045578044578044577044576045576045575046575047577045594043594044593044592045592046592046593046594045611044611044610044609045609046609046610046611044621044622044621044620045620045620045620045621044631044630043629043629045630046628045630045631044646043646044645044644045644045643046645045645045663045662043662044661045661046661046662045663045672043674044673044672045670046670046671046674045696043696043696044694044695046694046695046696046046046047046046045044045044047046048046048047046056046056046056045056046054046055047055047056046074045074045073046072046072047072046074046074046084045084044083046084046084046083047083047084046119046120046119046118047118048118047118047119046142045142045141045140046140047140047141046142046221046221046221046220046219046219047220047223046262045262045261046261046260046261047261046263047283046283046281046279046281000000000000000000046400046400045399045398046398047398048399048400000000000000000000045424046424046424047425047426046464045464045463046462046462048462047461047464046466044466044466045464046464046464047465047466)
 (.leaf 46542046542045541045540046542047540048541047542047563044563045562045561046561048560046561047561045570045568044568045568045567047568046568047568047596044596045595045594046594047594047595047596046608045608045607045606046606046607047607047608046624045626044625045624045624046623046624046625046635045635045634044634046633047633047634046635046658045658045657045654046656047656046657046658046692045694046691044691046690046690046691048693046708045708045707046707047707047706047707047708047039047040046038046037000000047037048038048039047097047097045095046093046093048093047095047095047104046104046103047103047102048102048103047105047113047112045111045110047111047110048110048111047123047123047123046121047121048121048122048123046142046143046142046141047141048139048142047142000000045186047187046186047186049185000000000000000000047285047284047283000000000000000000000000048400046400046399046398047398048398049399048400000000046433046432047433000000000000000000000000000000000000000000000000000000048446047446047446047530046528047527046528047528048526048529048530048560046561046560047559047559049559048560048561047589047588046588046587047587048587048588048589047610046610046609046608047608049608048609048610046624045625045624046623047623047622047623047625047631045630046628045628046628047629047629048631047634045634046633045633046633048632047634048634047711046711047711046709047711048711049710049712048070047070046069047068047069049070049071048071048086047084047083046083048084048083048085049086000000048181048180048180048180050179050180000000))))
 (.node 4 (.node 2 (.node 1 (.leaf 49276047276047275047274048274048274048275049276048424046424048422048422048422049422049423050423048452046452047453046451048450048450050451048452048497046498047496047495048497049495049498049499048525047525047524046524047524048524049524048525048552047552048551048549048550049550049551050552048553048552047552048551049551049551050552050552049559047559048558047557048557049557050558049559049581046580047581046580048580049578050580049582048632046633047633046632048632049630049633048632048650046652047649047648047649048649049649049652047661047662047661047660048660049660049661049662048686047686046686046686048684048685049687048687048699047699048699047699048697049697050700049701048714048714047715047714048714050714049713050715049027049028047026000000000000000000000000000000048087048087048086048085048085050085049085050085049090047092048091048090048089050088049089050090049135048137047134048133049133051133049135050135050142048142048139049139049140050138050141050142049170049172048169047168050169050170050171051172048224000000048223047221049222051220050221049222049396048396049395048394049394051393051395050396049398048398049397048396049396050396051397050398050399049399048398049397050397051397050398051399000000000000049403048402049402050402000000000000049413049413048412049411049411050411050412050413049463049462049461048461049461050461050462050463049492048492048491047491049490049490050491050492050547048549048546049547049545050547051547050549049574048574048573049572049570050572050573050574049606048606049604049604049604050602050603050606)
 (.leaf 50613049613048612048611049611050611050612050613049662047661048661048660049660050660050661050662049671049671049671049671050669050669050670050671050697049697048697049696049696050696050697050698050066050067049065048064050064050065050065051066049118049116049115049114050116051116050116051116050126050127050127049124050124050125051125052126049150049152049151049150050150050148050150051152050217050217049216048217050217052216050217050218050382000000000000000000000000000000000000051382051395050395049394050393050393052393051394052394050426049426049425050423050424051424050424052426049489048491048489049489050489050488051490050490049507049507049506049505049506050507050507051507050567049569049568049565050565051565052567052568050578049578049577049576050576051574051577050578050631049633049630048630051631052631052631051631050643049643050641049639050641051641051642051643050661049661049660049659050659051659050659050661050673049673049672049671050671050672051674050674049704049704049703049702049702050702050702051702051061050059050058050057051059051058051059051059050078050077049076049076051077051076053078052079051105050105050102049102051103051103052104051103051130051130050129050128052128052128053130052130051142050142050141050138051140051139052141051142051266049266051265051265051264051264051265051267000000000000051276050276051276052276000000000000051415051415051415050413051413053414053416053416051453050453050452050451050451053452051453051453050467050467049467050467051467052467051467052467050514050514050513050512051512052512052513051513))
 (.node 1 (.leaf 50518049516049516050514052516051516051517050522049523049522050522051522051521052521051523052599051600051598051597052598052598052599052600050611050610050609049609051610052610052611051612051633050633050632050631051631053633053633052633051649050649051649050649050647052647052650052651051670050670050669050668051668051668052671051670051690050692051690051689051690053689052691052692052044051046051043051042053043053042053043052045052151050150050148051149052149053149053150052151052166051166051165052164052164054163053165052165000000000000000000052180000000000000000000000000052428000000051429051428052428052428052428052429053452050451051452051449052449052450052451052451052497051497052496051495052495053495052496052497052528051528051527052526052526052527052527053528052542050542051541052541052540053540053541052543052561051561051560051559051559052560053560054562052570052571052571051570052568052569052569053570051614051612050611050611051612052612053613053614052621052622051620052620053619053619053620053621052633051633051632051631053633053631053632053633051668051668050668051668051668053668052668052668051681051682051681050678052680054679052681053682053051053052051051051051053049054049054050053051053074052076052075052074053072053073054075053075053094052094052093052092053092054092054093054094053126051125053124053123053124054124055124054126053391053391053389053389053389054389054390054391053395052393053394053393054393055392054394000000053419053420053419053418053419055418055419054419053458052458053458051457052457055457055457054458)
 (.leaf 52553052552052551051550053552053551055553053552053593052593053591053591054590054591055591054591052618052617052616052615053615053615053617053617053645051645052646052643053643053643054646053646053707052707053705051704053705054705053706054707054062053062052062053060054060055060054062055062053113053112052111052111054112055112055113054113054117052118052118052115054115055115054116055117054131053131054131053129055129056131056131056131055262054261053260053259000000000000000000055261000000000000053275054273054274054273000000000000055392053392053391053390054390056390054391056392053535052534053534053533054533054532055532054533055563053564054562053560054560055562054562054562054632053632053631053630054630054630055631055632055655053656053655054653054654055654055655055656054655054656053656053655055655055655055656056657054666053668053667052666054664055664054666054666055069055069055069055069055069056069056070057071055081054081053080054079054080055080056080057082055095054095054094054093055093055094055094056095054106053107054106055104055105056105057106056107055140054140054139054138055138057139056139056140054150053150054150053148055149056149055149056149055173055173054172054171055171056171056172000000054391054391054390054389055389055388055389056391055411055412054412054411056410057411057411057411056417054415055415054413056414056413057415057416056429055429055428055427055427056427056428056429054439053438053438055436055438055437055438056438056462054461055461054461055459055460056460056461055483054483053482054483055483055483055483056483)))
 (.node 2 (.node 1 (.leaf 55573054571053571054571055571056571055570056573055587053587053585053584055585056585055585056585055635054635054634054633055633056633057635056635000000000000054686055685055683000000000000000000055694055694054693055693055692056692056693056694056080054080054080054079055079057080056080056081056095055095055094055093055094058094057094057095056124056124056124054123056124057122057123057124056144055144055143055142056142057142058143056145056171055171055170056168056169057169058170057171056430056430056429055428056428058427057429058428056433056434055434056432057431057431057432057433056469055469055468056469056467056467057468056469056473054473054473054472057472057471058473058473056512056512056512056511056510057510057511058513056521056522055522056519057520057519057520057521056563055563054562054562057562057561057562057563056611055611056609056609057609058609057610056611056632055632055631054630056630057630057631056632057656055656055655055654056654056654057655056654056692055692055691055690056690056692058692058693057073057074055074057071057071058071058074057074057152055151056149055149057150057149058151058152057166056166057165056164057164059164058165058166057168056168056167056166057166058166058167058168057209056209055208055208058208058207059209058211000000057268057267057266000000000000000000000000057371056371056370000000000000000000058370058371058381057382056381057380057380059380059380058382057405057406056406056403057403059403059404057405057445055445055445056445057445057444058444057445056461056460055460056460057460057460057460058460)
 (.leaf 57525057525057524057523057523058523059525059526057546056546056545055544056545057546057546058546056575056576056575056574057574059574058575057575056579055579056579056578057578057577058577057579058030057030057029000000000000000000000000059030058089056090056090056087058089059087059090059091057125057124057123057122058124059124058124059124057133056133057131057130058132059132059133058132058140057140058139058138058138059138059139059140057157057156056157056155058156058155059155059158059383057385058384058383059382060382059382060384059391057391058389058389058389060389059390060391058537057537057536057535058535059535059536059537058616057616057615057614058614060614060615060616058691058692056692056691058691000000000000000000059047058047057046057045059045060045060046061048059093059094058094057091060092060091060092060095060103058103059101059100059101060101060102060103060386058388058387059386060386061385061386061387059456059456058455058454059454061455060455059458059474059474059474059473060472061473059474061474059491058489059489058487059489060489060490060491059527059527059526059526059525061525060526060527059566059566058565058564059564059564060565060566058575057575058575059574059574059574061575060576059587058587058586059585059585060585060586060587059610058610058609058608059608060606060607060610060636058635059635058633059633061634060634060635060643059642059641058641059639061640060642060643000000058699059699000000000000000000000000000000060049060050059050059047061048061047061048061049061084059084060084059084060084000000061083061084))
 (.node 1 (.leaf 60119058121059118058117060117060117062119060119060140059140059139059138061140062138061139061140059160058161058159059159060159060159061160062161060216059216060215059214060214061214060214061216060468059468059467059466060466060465061465061466060485060485059482060483060483061483061484060484060566059566059565059564059564062565062567060566060586058586059585059584060584061584060585060585060589059591058590058589060589060588061588060589061646060646060646060645061645000000000000000000060657059657060656059655060655000000000000000000000000059669059668060666060667000000000000000000061207060207059206060205061205062205062206062207000000000000061379061378062379000000000000000000000000061396061395061394061394062394000000000000061417060417000000000000000000061416062416062417062435059435059434061433061434062434063435062436061436060438061436059435062435062436063437063437061442061441061441061440061440062438063441061440060484060485060484060483061483062483062484063485061506060506059506059504061506062504062505062506061559061560061560061559062557062557062558062559061575061575059574060573061573063573061573063575061602059601060601060600061600061599061599062600061611060611060610060607061609062609062610061610000000061648061646061645000000000000000000000000000000061649061648061648000000000000000000000000000000060651061649061648000000000000000000000000062092062093060092060091063091000000064092063092061114061113061112060112062113062112063114062114062123062123062122060119062121063119063120064123062148061148061147061146062148062148062148062149)
 (.leaf 62164061164062162062161062162064162063163062163062207061207060206061205062205063205062207063207000000000000000000062379000000000000000000000000062426061426060426061424062424063424062426062426062434061434061433062432062432062431063431064432063449060450061448061447062449064447063448063451063485060484061484061483062483063483063484063485062504061506061503061502062504062503062503063506061514061515061514061513062513062513063512063513062545062546061546061543062543062544063544063545062596061596061595062593062594062592062595063596062628061628062627060626062626063626062626063626062636062636062636061634062634064634063635063636000000000000061644062643063642000000000000000000063116062118061115061114062115064116063116064116063125061124061124062123064123064123063123064125063135062135061134062133063133064131063132064133063153062155062154063153063153063153063153065155063165062165062164062163063163063163065163065164063171000000061170062169063169064169063170064171000000062394062393063392062391063391064393000000064451063450063449063449063448065450065450064450063463061464061462063462063461065462063463063464064477062479062476062475063475065476063477064477063486063485063485062484063484064484064485064486063523061522061521061521063521063521063521064521063539062539062538062537063537063538063538063540062585061585061584062584062583064584063584063585063608062610062609062608063608063607064607063608064100064101063099063098063098066098065099064100063216063216063215063214064214065212065215065216064221062220062220062219064219064219064220064221)))))))
 (.node 32 (.node 16 (.node 8 (.node 4 (.node 2 (.node 1 (.leaf 64416062417063415062414063415065416064416065416064487063487063486063485064485065485064486066487064532062533062532062531064530064531065531065532063586063585062585062584063584064585064585065585064599062599063596062596063596065597065598064597063614062614063614063613064613064613065612064613066155065155065155063153065154067153067154066154065225063225064224063224064224066223065225065225065409064409064408000000000000065408066408066409065625063627064626064625065623065623066624065626064631064630063630063629065630065629065629066630064673000000000000000000000000000000065673066673067111065110066110066110066110067110067111067112066139065141065138064137066137066138067138067141066208065210065207065206000000067206067207067208066476065476065475065474067475067474067475066476066490065490065489066488066488067488067489067490065508065508065507065506065507066508067509066509066513064514064512065511067511068512068513068513066534065534066533065532066532067532066534066534065557065556065555064554065554066556066556067558066567065567065566065565066567067565066567067567066618065618065617065614066616066616067617066617066132066132066131065130067132068132067132068134067206000000000000000000000000000000000000068206067230066230065229065228067228068230067230068230066430066430066427067427067428069427067429067429067443067442066442067441067441069440067441068443067488066488066487066486067486068486067487068488067499065498065498066497067497067496068498067499067514066514066513066512068513068512068513068514067550066550065549066550067548068548067550067551)
 (.leaf 66591065592066591066588067590068590068591067591067619066619066618066617067617069616067617069618069104067102067101068102068102070100069101070103068107067105067104068104069104069103069104068105068124066125067125067122067124068124069123068125068165067165067164067163068163069163068164069165068211066211067210067209068209069209069210069211068474067474068473068473069473069472069473068475068518067518067517067516068516070517069517070518068575067575066575067575068575069575068575068576068583068581066582066580068579069579068581070582068590067590067589067588067588068588069589070590068594068595067593067592069592069592069593069594068605067605067604066603068605069605069606068605068679067681067680068679068679068679068679069679069132068132067130067129069130071130069131069132069152069151069151068150069150069149070151070152069214068214068213068212069212069212070213070214000000000000000000068238069238070238069239069240069421069421067421067420069419069420071420070421070438068438069436069436069436070436070437069437068487067487068486067485069485070485069485071486069529068529067529068527069527070527069529070531068542068541068540068539069541070541070542069543069546067546067546067546069544071544070545069548069601069600068600067598069599070599069599070601071156068156068155070154070155072154072155072155070164068164069163068161070162071162071163070164069171068171069170068169070169071169071170070171070171069173068172068171069171070171071170070173070179069177068177069177069177071177070177071179069183069183068183069183069182070183072184071185))
 (.node 1 (.leaf 69239000000069238069237070237071237072238072238070400000000000000000000000000000000071399071402070410070411069409069408069408071408071409072411070423069423069422069421070421072421072423072424070446069446069445068444071444071444071445070447070518070518069517070517070516071516072517071518070558069558068559068557070558070558070558071560070563069563069562069561069560071561070561071563071613069611069610069609070611072610072612072612070618070619070618070617070616070616071617070618070630070629069629069626070628071628070629070629072113071113071111071111071109072111071112072113071116069118070115069114071114071114071116071116071129069129070126070125071127072127072128071128071140070140070137071137071138072138072139072140071207070207070206069205071207072205072206072207070221070221070220069221070220071220071221071221072230071229070229071227071228071227072229072230070434070434070431071432071432071431071432071432071485070485071483071482071483072483072484071485070571070570069570069570070569071569071570071570070629070629070628070627071627071626071627072627071112071112071109070108072110072110072110073112072193070193070191070191072191074191073192073193072215071215071214071213072213073213073214072216000000071241072240072238072239073239000000072240072410072411071409071408072408073408073409072410072451071453071452070450072451072450073450073451072516071516071515072514072514073514073515073516072530071532072530071528072528073528073531072530072534071534070534071534073533073532072534073534072548071548071547071546072546073546073547073550)
 (.leaf 72579072579071578071577073577074577073578073579073613072614071614072612072613073611073614074615073132072132071131072130072130073130073130075132072154072155072154072153073153074153074154074155073176071175071174072172073174073173073174074176073210072210072209072208073208074208074209074210072245000000072245072242073244073243073244074246073374000000000000000000000000074372073374074374073392073393071391071391074390074390074391074392073403073404073403072403074402075401074402074403074420073419072417073418073418075417074419074420073421073422073422073420074420075420074422075422073462073462072461073460073460074460073461074462073487072487072486071485073485074485074486073487000000072492072489071489073490073490073490000000073516072516072515072514073514074514000000000000073562072562071561071560072559074560073560074562072587071587072586072583073585073585074586073587073609073608073608072607073607074605074608073609074139073139072138073137074137074137074138074138074142073142074141073140073139075140074140075142074155072154073154073153074153074152076154076154074167072169073166073165074165075165075166075167074184074183074182072182074182074182075183075184074342074343073341000000000000075340075343076344075438074439074438074438075437076438076438075438074463073463073462073461073461075461074464075463075473074473073472073471073471075473076473076474073487073487074486073485074485075485000000000000074508000000073507000000073506074508074508074508074519073519074519074519074519074519074519074520074542073542073541073540074540074539074540075542)))
 (.node 2 (.node 1 (.leaf 74552074552074551074551074550074550074551075552074567072566073566074565074565075565075566074567074576073576073575074574074574075574075575076576075592073591074591072591074591074590075592076593074600073600073599073598073598075598074598074600074624072625072625074623074622075622076624076624074672073672000000000000000000000000000000075672074124073124074124075123075123077123076122075123076134074135074134074133075133076133076134077134075170074170074169074168075168075169075169075171075196000000074195074194075194076194075195075196075212074212073212074210075210077211077212077213076239074241073240074237075239077238077240077240075377073377073377073376074376075375076376075378075385075386074384074383074384076383076384076385075395074395073395074393075393076393075395076395075407074407074406073405075405075406075407075408075414075414074413073410075412075412075413075414075426075427075426074426075424077424076425076426075477075478075478075475076476076477077477076477074508073506074507074506075506075505076507076508075526074526073525075522075522075524075525076524075552074552074551074550074550076550077552077553075578074578075577074576076576076576076577075579075611073610074610073609075609076609075609076611077184075184075183074182076182077182076183077184076202075202000000000000000000077200000000077202000000075363074360074360076361077361000000000000076430075430076429075428077429077428078429077430076446075446076446075444077444078445077447078448075458076457075456075455076455078455078456077457076472076473075473076470076470076471076471077472)
 (.leaf 76525075527075526074525075525077523076525076525075537075535075534074533075534076534076535077535075544074544074543074542076543076543077542076544076568075568074567075566076566076565077565077568075604076602075601074601075601077600076603076603075632075633074632075631076631076631076631077633077159076159075157077156077157079157079157079157077222077223076223077221077222079221079222079222077368076368076367000000000000078368077368077368077393076393076392076391076392077393077393077394077501076503076500076499077499079499078500078501000000000000000000076512077512078512077513078514076515076514075514000000000000078514077514000000077555077555076554075553077553077553078554079556077580076580076579075579077578079578078579078580076587076587076586076583077585077584077586078587077625077625077625077625078624078623078624078625078119078120078119077117078117079117079118079119079135077135077134077133078133079133079134080135078153078153078152078151078151078150079150079151077179077180076179078177078178079176079177078180078184077184076183077182078182078181080182080183078206077206077205077204077204079204078206080206077213078212077211077210078210080211078212080213079234077235078233077233079232000000000000000000079237078236078236078235079235000000000000000000077371077372077369077368077368078370078370078371078388076388076387077386078386079388078388079388078414076416076414076413078412078413078415078415077450077449078449078448078449079447080449079449078469077469078468077467077467080467080469078470078471076471076471077469078469078470079470079471))
 (.node 1 (.leaf 78571077571076569077569079568078569078570080570078579077579077578078577078577079577079578079581078616077616078615078615079615080615079615079616078149078150078149078148079148079147079148080148079175079175079175078173079173080173080176079175079191078193077191077191079191079191079191080193078196077196077195077193079194079193079194080196078203077202077202077200078201079202079202080202000000079228079227079226000000000000000000000000000000079231079230079229000000000000000000000000078403077403078403079402079402079401079402079404079404078406078403077403078403079404080405079405079488078488079488079487079488081486080487080488079506077508078505078504080504080504079506080506078519078518078517078516000000080518079518079518078532078532077532078532079532080530080531079533080565078565079563078563079563079563081564080565079599079599079598077599078598079598081598080599079197078198078197078196080196080196080196080197080207080207080206078206080205081205080207080208080217080218080217080216081215082215082216080219081223080223080223080222080222082222000000000000080375079375080373080372080373080372080373082373080378080379079377080376080376080376081377081378081427080427080426080425081427082427082427082428081460080459080459080458081458081458081459082460000000080489079488080487080487082488081488081489079530079531079530080528080527080527081528080529080551079551079550078549079549082550000000081553081561080561079560079557080559000000081560081561080590079590080589078588079588081588080588081590080610079610080610080610081609081610082609081610)
 (.leaf 81157081156081155080155081155083154083156083157081197079197079197079196080196081196081197081197081205080205079205080205080204081205081205082205081364080364079363079362081362081363081363082364082428081428081427081427082427082428082429083430082435081435080433080432081434083432082435082436082460081460081459081458081458083457083458083459081464081464081464081463082463083463000000082464081488080488080487081486081486000000082487082488082542081541080541080540082540082540081540082542082609081610081609081609081609083608083609083609081619081618081618080617081617082615081617083619081628081629081627080626081626082628082629082630081633080633079633080633080633081632081632083633000000000000000000081640081640082640000000000000082129082131082129081129082127082127083128083131082140081140000000081138082138083138084139082140083184082184082183082183083182084183084184084185082365081365081364081363081363082364082365083365081384081384082383080381082382082381083383082384082413082412082411082410082411083411083412083413082430081430081429082428083430083430084430082431082469081469082469081467082467083467083468083469083483082483081482082480082481083481084482084482082503080503080503080502082501082501082502083503082547081547081546000000081546082546083546083547081560081560000000081558082558082557083559083560082563081563081562081561082561082560083560082563081585080585081584081583082583082582084584084584082599081599081598081597082599082597082599083599083608081609082607082606082607084607084607084608082610081610082609081610083609083608083609084610))))
 (.node 4 (.node 2 (.node 1 (.leaf 82629082628081626082626082627083627083628083629082140082140082139082138083138084138084139084140083174082174082173082172083172083173084173083174083386082386082385081384082384083383083384083385084396083396083395082393084394084395084396084397083421083421083419083419083419085418084420085421084462083462083461000000084460085460085461085462083467082467082466082465083465085465085466084467084124082125083123084123084122085122086123085124084167083167084167083165083165084166085166085167084203083203082203084202084201085201084202086204085214084214084213084212084213085213085214086214084377083379082378082375084375084376085376084377084405083405083404083403083404085403084405084406085415083416084414084414085414086413085415086416084471083471083470083469084469085469085470086471084567082566082565083565084565084565084565084566084571082572084570082570084569084570085570085571083594082594082593083592084592085592085593085594084631082632082631082631084629084630084631084631085130085131085131084128085128086128085130085130085152084154083152083152084151085152085152086154086165085165085163084163086162087163087163087164085179085179085178083176086175085177086178085179086225083226084225085223085224086224087224086224085363084363084362085361085361086361085362085364085425085426085425085424086423000000086424086425085444084444084443084442085442086442086443085444085491084491084490084489084489086489087491086491085497084497084496085495085495086495086496087498085535084535084534084533000000086535085534086535086619084620085618084618085618086616087619086620)
 (.leaf 85628083628084627083626084625086626085626086628087146085146084144085144086144087144087145087146086175086174086173085173087171088172088173088174086366084367085365084365086364086365086366086367086369086370085370084367086367086367088369088370086392085392086391085390086390087390088391087392086394085394085393085392086392087392087393087394086442085442085441085440086440087440087443086443086518086518086518085518086516087516087517087518086521086522086521086520086521086521087522086522086552084552085551084551087550087550087551086553085580086579085579086578086578088577088578088579085593085594085593085592086592086592086592086593086606085606085605086603086604088604088604087606086612085612086612085610086612087612088613087612086630084631084630085628086628088628087629088630087126087127087126086124086125087125087125088126087137086137085137085136088136087137087137088139087194087195087193087193088193089194089194089195088209087208087208087208087208088208089208088210087471087472086470086469087469087469087471087471087497087498086496086495087495088495088496089498086515086514086513086512086513087512087514087514087517086517086516086515086516087515087516088517087523087523087523086521086522088521087523087523087539087540087538087538087537088537088538088539088143086143087142087141088141088141089142088142089159087158088159087158088158089158089159090159088163087165088163088162089163090163090163089163088197088197087196087195089196090195089196088197089371087371088371088370088369090369089370089371089393087394087393087392088392089392089393089394))
 (.node 1 (.leaf 88405087407087404086403087403088403090405090406088408087408087407088406088406090406090408090410089415088414088414087414088414089414089415089416089449087449087446087445088447088447090448089449000000088456088455088454089454000000000000000000088500088500088500087498089499089498090499090500088509087509087508088507088507088507089508089509088535087535087534088533088533089533089534089535088558088559088559087558088558088558089559000000089114088114087114088112089114089114090113090114089117088117088116088115088115090117089117090117089130087131087130087129089128090130089130090132089159088159088158088157089157090157090158091159089187089186089186089184089185089185090186089187089380089379089379089378089378089377089378089380000000000000088385089384089384090384000000000000088443087443087442088442089440090440089442090442000000000000089454089453090453090453000000000000000000000000000000089454000000000000000000000000089470087471087469087468089468089469089469090470090568088569089567088567089565090567000000090567088607088607088606089605089605090605090606089607089611088613088612089610088611089609090610090611089625088625088624088621089623090623090624089624088628088627087627088627088626089626089627090627089148088149088147088147089146091147090147090147090155089155089154089153090153091153091154091155090360089360090359090359089358090358091359091360090451089451089450089449090449091449091450091451090484089484089483089482089482090482090483091484090526090527090526090525000000090525091525090527090535089535089534089533090533090533090535090536)
 (.leaf 90606089606089605089604090604091604091605092606090621088619088619089619090619090619091618090620091144090146090143089143091144091144091144091144090172089172090171091170091170093170092171091171091195091195090194091193091193091193091193092195092220091220090220090217091219092219000000000000000000091223091222091221092221000000000000000000091362091362090361090360091360091361091362091362090403090404090403090402091402092402091402092402000000000000000000090453091453092453092454000000091490090490089489090488091488091488091489091491091604090604091603091602091602092602092603092604092135091135092135092134092135094134094134093135092160091160091159091158092158093158092158093160093180091182092180092180092180093178093179094181092451091451091450091449092449092448093448093451092501090501090500091499091499092501092501092502092558092559092558092557092558093558094559094559092578092578092578092578092578092578092578093578092155091155092154093152093153093152093154094155094216093216093215092215094214095214094214094217093524092524092523092522093524093523094523094524093600092600092599093598093598094598094599093600093616092614092613091612093614093613093613094614094125092126092125093125093124094124094125095125094149092149092147092146094147094146095146095149094158093158092156092155094156094155095157095158095558094559093558092555094557095557095558000000095342094342000000000000000000000000000000096342095512095513094511094510094511097511097511096512095532094530094529094528095530096530096531097531095546094546094545094544095546095545095546095546)))
 (.node 2 (.node 1 (.leaf 95621000000000000000000000000096114096115095113094112097112097112098114098115095137095136096136096135097135097134097135096137097168096167096166096165096166097166097167097168096174095174096173096172096172097172097173097174097177096178095177096176096176097176098177098177096180096180095181096179097178097178098179098180096194096193095193094190097191097192096192096194096350096350096350095348096348096348096350096350097359096358096357096357096357096357096358097359096398096398096398000000000000000000000000097398097412096413095411096412096412098410098412098412096443095443000000000000000000000000096443097443097450096449096448096448096448097446097449097450096479095479094478095477096477096478096479096480097531095532095531095530096530097530098531097532096560095560000000095558096558096557096558096560097594096594096593095593096591098593098594097595095614095614094614095614097612096613096614097614097163097163096162097161097161098161098162098163097182097183097182096180098180098180097182098182098209097210097208097208098206099208098209099210000000097213097212096212096211000000000000000000097511097511097511096511097509098511098512098513098603097603097602096602098602000000000000000000098124097124098124096123099123100122100124098125098142097140098140096139099139099140100140099140098199098200098199098199099198100198099198098199098407098407098405097405099404099405000000000000097434000000000000096432098433098431099432098433098517097517097516097513098515000000099514099517098532097532098531097530098530099530099531099532)
 (.leaf 98568098568098568098568098568000000100568099570097605098604098603098603000000000000000000099604099115098115099115098113099115100115100116101116099153098153099151099150099151099150099151099152099160098160099159099158099158100158100159099160100187098186099186098184100185101184101185101186099422097424097422097421099420100422100423099422099448097449098449099447099448100448101448101450099551099551099550099549099549099550099551099552099590098590098589098588098588099588100589099589101211100209100209099209101207102207000000000000100351100352100350099351100349101349102351102351100437099437099436099435100435101437102437102438100480098481099479099478100478101478100479101480100494098495100493100492100492101492101493100494100517099517099514000000100515101515101516100516099521098522099521099520099520100520100521100521100595100594100593100593101592101593101594102595101135099136101135101134101133101134102136101136101143101143099143099142102141101142101142102143101166100166101165100164101164102164102165101166102351100350100349100348101348101348102349101350000000000000000000100359101359103358101359000000101431100431099430100429101429102429102430103431101501099502099501099501102500102499102500102501101514100514100513100512101512101511101512101513100520099520100519100518100518101517101518101519100528100528100527099526101526101526101527101528101534100534100533100532100532101532102533101534101559099561100558099558100558103559102560101560000000101569000000100568101568101568101568101568102162100162101161100160102160103160103161103162))
 (.node 1 (.leaf 103207102207102205101205103204103205000000000000102413101413000000000000000000000000000000000000102442102442102441101440102440104441104442104443102490101490101489101488102488103488103489104490101524100525100524100523101523102523102524102525101528100528100527101526101526102526102527102528101529100529100528100527101527102527102528102529102548102548102548102547000000000000103547103548101594101594101593102592102592103592102593102593103153103152103151103150103151103151103152103153103175102175102174102173103173103172103173103174103197103197101196102195102196103195103197103197103486101487102485102484102485103485103486103487103505101506103504102503103503104503104504104505000000102540102539000000103540103540104539103541103589102589102588103586103587104585103588104589000000000000000000000000000000103596104597000000104117103117103116000000103116105115105118104117105206000000103205103204104204105204105205105206104350104350104350104349104348104348104349105350104415102416103414000000000000000000000000104415104443103443104443104442104443106442106443106445104451104451104450104450000000104450105450105451104472103472103471103470104470105470105471106472103524102525102524102523103523105523104523104524104533102534102533102532104531105531104533104534105141103142105141105140105139105140106142105141105159104159104158104157105157106157106158106159106170103171105169105168106168107168107169107169105185104185104184104183104183105183107185106185105431104431105430105430106430000000000000000000105450104450000000104450104450106448107450105451)
 (.leaf 104502104502103502104500105500105501105501105502104521103522103521103520104520105520105521105521104527103528103527103526104526105526105527105527105549104547104546000000105547106547105548105549106560104561104560105558105559000000106560000000106565103565103564105563106563106563107564107564106580105581105580104580105580106580107580106580105583105584105583105581105581106581107583107584107161106161105160105159106159107159107160107161000000000000000000000000106379106379106380107381000000106431106430106429000000000000000000000000105455105457105456105455106455107455106455107455106493105493105492104491105491107491106493107493106497105497105496105495105496106495106497106498106499106499105498105497106497106498106498107499105513104514104512105512106512106511106512106512106518104518104517104516105515107514106516107516107120107120106119105118107120108118107120107120108127107127107127107126000000000000107126108126108149107150107148107147108147109146109148108150106189107188107188105186107186107186107188108188108206107206106205107204108204109204108205109206107364000000000000000000107362107362108365107365108434107432000000000000000000000000107432108434107447107447107447107446108446109446109447108447107474106474106473106472107472107473107474107475107554106554106553106552106552108554108555108556107590105589106589107587107588109587109588107590109177108177107177108176109176109174109177110177108191107191108190106190109189109189109190108191109442107441108441108440108441110441110441110442108447107447108446108446109446110447110447110448)))))
 (.node 8 (.node 4 (.node 2 (.node 1 (.leaf 109462106462107460106459108461110460109462110463109138109138108137107136108137110138109138109138109154109154109153109151109152111151111151110154109486108486107485107485108486110484109485109487110503109502109502107501110502111501110501111503109549108549108548000000109547110547110548110549110569107568108566107566108566110567109567110569110580108581108578109579109579110579110580110581111151109153109152110150110151111151112151112152111160109160109159109158110158112157111159111160111165109166109165110164111163112164112164111166000000000000000000110206000000000000000000000000110372110371109369000000110370110370111371111372110450110451110449110448111448112449112449111450110463110463109462110460110461111459110461111463110475110476109474110473110473110475111474111475111501110502110500109498110500111500111501111502111516109515110516110515110513111513110515111515111578110577110576110576111576111576111577111578110586110586110585109584110584110584110584111586111594110593110593109593110593112593112594111595112201111201111200111200112200112200112201113201000000111204111203111203112201000000000000000000111347111347000000000000000000000000112346111348110354109355109353109352111353111353112352112355110472000000110472110471110470111471111471111471111481109482110482111480111481112481000000112481111487109488109487109485111485112485113487112487110548110548110547110546111546111545111547111547111575111574110574111573112572113571112572113574000000000000000000111597111598112598112599111600112136112137112136112135113135113134113135113136)
 (.leaf 112187112187110186112186112185114185114187114188112200112200112198112198113198114198114199113200112448111448112446111446113446113446113447114448112453112454111454110452113451113451114452114455112560112559112558111558112558114557114559112559112591112591112590112589112589113589114589113591114140112139112138112137113137113138114138113139113160112160111159113157113158115158113159114160114176113176113175113174113175114175115175115176112344000000000000000000000000114341113343113343112377112377112376112375112376113376113377113377112442112443111441112441113441113440114442114443114493112492113492113491114491114490114491114492114508113507113507113505113505115505114506115507113510113511111509111509114509114508114509115510114571113571112571113570113570114570115571115571115178114178114178114177115177116177116177116179113372112372113371114370114370115370114371114371000000114448113447113446114446115446114447114447114466112465112464114463114464114463115465000000114485114486114485114483115484115483116484116486114520112520113519112519113519114518114520114521115558114559114557114556114557116557115558116559114578114577114576113576113576115574114577114577114592114591113591114589114590115590115591115592116159114160113159115158115158117158116159116160115183115183114184115183116182117182117184117184115189114189115189115187115187117187117190116189000000000000115197115196116197117197000000000000114342114341000000000000000000000000115341116341116461114461114458114457115457115457115459115459116483115482114481000000115482116482117482117482))
 (.node 1 (.leaf 116501114501114500114499115499115499115499116501115538115539115538115537116537116538000000116538117170116169115169116168116168118167118169117170117197116197116195116195116195117195117196118197000000000000000000000000116390117390000000000000115446115446115445115444116444117444116445116446116447114447115446115445115445116445116446116446116465114467000000115465116465116464117466116465117476115475116475116474117474118475118475118476116485116486116484115483117483117483117484117485116494116494116493115492116492117492117493117494116508116508116507115506117506118506118507118508117547116547115547115546116546116545117547117548117554115553116554116553117553117551117554118554116563114564116563114562116563118562118563117563000000116147117145117145117145117145117146117146117148117148116147117145000000117146117146118146118172116174117172116172118171119171119172119173117355117355117355117354118354118355119355118355118364117365117364117363118363119363119363117366116377116377116376116375117375117375117377117378117430117430116431000000117428118430117430117430116448116448116447115446116446117446117447117448116470116470115469117469117470117470117470118470117519115519116518116517116518119518119518117520118554117554116554117553117551119553119554119555118134118134117133000000000000000000000000118135119172118172118171117171119170120170120172120172119181117182118180118180119179000000000000000000118351118351118351118350118351120351120351120353119355118355118354118354118354120354120355120356119363118363118362118361119361120362120362120362)
 (.leaf 119363118364118363118362119362120362120362119363117371116371116370116370117369118369118370118371117375117375116375117373117373118373118374118375118379118380117378116377117378118378118378119379117389116388117388117387118387119387118388118389118436118437118436117434000000119436118436118436117459117458118458118456119457000000000000000000118564118563118562118562118562119562120562119564119569118568118567117567118567119567120567119569119571117572118570117570119569120569119571119572000000119182119182119181000000000000000000000000120360119360119359118359119359121357121359121360118369117369117368118368119368119368119368119370118373117373117373117371118371119371119372119373119379118379117378117378118378119377120378119380118390117391117390117389118389119389119389120391119405119406119405119404119403119404119405119405119414117415118415119413120414120414000000119415118483117483117482118482119482119480119482120482120574117574119573119572120572120573120574120575119584119583119583118582119582120582120583121584000000117602118601117600119600119600119600119601121142118141120141120140121140122140122140121141120348120349120348119348120346122347122348122349119372118372118371118370119370120370120371120372120479119479120479119477000000120478121478121479121508120507119506120505121505122505121506121507121530000000118528120528120528122527121529121530120543119543119542120543120541121543121544121545121137121138121136120135122136000000123137121137122166121167121165120165121165122165123166123167000000121193000000000000000000000000000000000000)))
 (.node 2 (.node 1 (.leaf 121432119432119432120430121432122432121432121432120451119451120451119450121450121449122451121451000000119468121467120467121465123466122466123469120491121490121490121489000000121489123490123490122495120495121495121495121495122495123495123495121508120508121508121507121506122506122507122508122515121516121514121513122512122512123514123515122517121517121516121516122515123515123516123518121572121570121570120570121570122570122571121572121586121585120585121584121584122584122585121585123356121357122355121355122355124354123356123357121440120439120439120437122438123438122438123438122445120444120444120443122443122443123444124445122509121509121508121507122507123507123508122510122522121522122522122522123522124521124522124522000000000000121149122149123149123149123149000000124165122165123163122163123163124163125164125165122413122414122413121411123412123411123412124412123464122466123464123463123462000000000000123464123487122487123486123486000000123486123486123488123501122501123500123499124499124499124500123502124522123522123522123521124520125521125522125522122585122585122584122583123583123582124584124585124344124345124344124344124344124343126344126344125355123356124354123354124354125354126354126355124385124385123384124382124383124383124384125385123401122401123401122399124400124400124400125402000000000000123457123456124456125456125457125458125477124476124476124476124476125474125477000000125549123550124548123548124548126547126547126548124551124551124550124550124549125549125550125551125563124563123563124562124562126560124562126563)
 (.leaf 126161125161125159125159125159125159126160126161125348125349124347124346125346126346127348125349125376123376124375124374125374126374126375125377125416123417125416124414125416127415125416126416125449124449124448125447125447126447126448125449000000125472125471124471125471000000000000000000124487123486123486123485125486126484126487125487126520125519125519124518125518126518127519127520126526125526124524124523125525126525127526127527126534125535125534125533126534127533127533127535125575125574123572123572125573125572126574125574124580123580124580124579125579125579125579125580126142126143125141126140000000000000128141128143126197126198125198126195000000000000128197128199126335125335125334125333125333126334126334126337126365126365125364126364127363127363127364126366126383124383124382125381126381126381126381127383126455125455125454124453126453127453126453127455127530126529126529126528127527127528128528128530126585124584125582124582125582127583126583126584127370125371125371127368127368127368127370127371126411125410125410125409126409127409127410128410127459126459126458125456126456128457127457127457128492127492127491127490128490128491129491000000127513127513127511000000127511127511128512128513128520127520127519126518127518127518128519128520128526127526126525126524127524128524128525129526127551127552127551125549127551129550128550129551128557127557127556127555128555129554128555129557128590126589125590126589127589128589127589128589127599126599127597127597127597128597128598127599127161127162127161126160128160129160128161129162))
 (.node 1 (.leaf 129334126334126333127331127332128332128333129333128357127357128355128354129354130354130354129357127389000000127389127388128388129388129389128389129393127392127391000000127391128391128392129394128417126416128416127415128415128415128415129417128436128437128436127436128434129434128436128436127447127447128445128444128445128445128445128446128484128485127485128482129483000000000000000000128503128504128504128503128503130502130503129503128527127527128526127525128525129525129526128527129539128539128539128538129537130537130539130539128153128153127151127150129151000000129151130151000000000000128154128153128153130151129153130153129154128154000000128154000000129153130153129155128358127359128358128357129357129357129357129357128359127359127359128358128358129357129357129358128381127382127382127380128380129380129381129381128389127389127389128388129388129388129388129389128512128513128512127511128510130511129511129512128513127514128513128512128512129511129512129513128518127518127517128516128515129515129516129517129522129522128521128520128519130520129520130522129573128573129571128571130570130571130572129572130144130145130144000000000000000000000000000000130331128332128331000000000000130331130331131331130349129347130347130346131345132345132347131349130389128391128389129389129388130389130389130391129409128410128408129408130408130407130408130408000000130493128493000000000000000000000000000000131498130498130497130496131495132496132496131497130543130544130543130542131542132541131542130544131579130579130578129578130578132577131579132579)
 (.leaf 131350131351131350131349132349133349133350133351132379131378131377131376131377132377132378133378130526130526130523129524131524131523131524131525131570130570130569131567131568133568131569133570000000000000132163131163131163134162133164000000132365132365132365131363132363133363133364134365131402130403131402131401131400133401132401133403132417132418132417131417131417134417133418133419132469131469000000000000131468132467132469133469132575132575132573132572132573134573133574133575000000132594132593131593133593000000000000000000132396132396131394132394133394133393134395133396132397131397131397132396132396133396133396133396132454131454132453133452133452133452134453135453133519132521131519131519133517133517133519134519134536133536132536132535133535134535135536135536134554133553132552133552134552135552134552135554133566132566133564133564134563134564135565134566133587133587133586133585133585000000000000133588135151133150134150134149135148136148136150136151133338132337132336133334134334135336134336135338134351134351134349134349134349134349135350134351134353134353134353134353134351134351135352134353134406133406133405132405133405134405134406134406134500134500134500134499000000134499134500134500135537134537134536134535135536136536136536136537133548134549134547134546135545134546135548134548134566133566133565134563134564135564136564135566135366135366135365135364135364136364135366135367136383135382135382135381136381136381136382137383134405133405133404134404134404135404135404136404134417134418134417133416135416135415136417135417))))
 (.node 4 (.node 2 (.node 1 (.leaf 136446135446135446134443135445135444136446137447000000134504135504134504135504137504000000000000136505135505134504135504000000000000000000136505135529135530134530135529135527136527137529136531136552135552135551135551136550137550136550136551135553135554134552135552136552136551136552137554135341135341134340134340135340136340136341137341136363135363135362135361137361137361137362136363000000000000000000134432136432136432136432137434136458134457135457135456136456137456137457136458136527136526136525136524136525136524136525138526000000136536136534135534137533000000000000000000136162135163135163136162137162137161000000137163138332136331137331137330137329138329139332139332137374137375137374137372138373138372139374138374136416136417135415135415137415138415137415137416137426136426135426136426137426138426137426138426136471136471136470136469137469137469137469137470137511136513135511135510137509137510137511137512138546137546137545136543000000000000139545139546137348000000137348138347138347139347139348138348138372138373138372138371139370140371140372140372138375137375137374138374139374139373140374138375138388138389138388137388138388140387139387140388137446137447137446137445137445138444138445138447139519138519138519137519138517140518140519139519138567137567138565137565139564140564139564139565139156139157139156139155139154140154000000000000138349137348137348138348139348139347139348140350140357138356139356139356140356140356141356141356139387138385139385139383140383140385141385140387139402139402139402139402140401000000140401140402)
 (.leaf 138448138449138448137446138447140447139447140449139555139556138556139554140554141554141555140555139572139571137570138570139570140570140571000000141371140371140370140369141369142369142370142371140388140388139387140387141387142388142388142388140411139413140411139411141411142411142411142411140421138420140419140418140419141419141420140420140459139459138457138457140457140456141458140458000000000000000000139475140475141475000000000000141519140519140518140518140518142518141519142519141555140555140554140554140552142553142554142554141331141331140330141329141329142329142330142331141333140333140332141331141331142331142332142333140350140351140350139348141349141349142350141351142370141370141369141369142368143368143369143370140420140421140420140419141419141419141419141420140461139462139460139459140459141459141460141461140463140464139462139462140461141461141462141464141514141514141513140512141512141512143513142514141520141521141520141519142519142520143521141521000000000000000000000000142168143168142168143168142361141361142361142360143360144360144360143361142373142374142373142372143372143371143372143373143383142383142382142382142382143382144382144383143555142554142553142552142553143553144553143553144394143394143393143392144392145393145394145394144397142397143395143394144394145394145395145396144399143398143398143397144397145397145398145398143403143403143403142401143401144401143403143403142458141458141457141457142456144457143457143458142467142468141467141465143466143465143466143467143518142518142517142516142515144516143516143517))
 (.node 1 (.leaf 144160144161144160143158143159146159146160145160145368000000144367143367144367146366146367146367144373143373143372143371143371144372145372144373143453143454143453144451144452145452144453144453144177143178144176143175145175147177145177145177145369144369145368145368146367147368147368146369146395145394145394145393145393146393146394146395145399144399145398145398145397146397146398146399144424144423143422143421144423145423145423146423145513145512145512145511144510147511147512145512146558145558145557144555144555146555145556147559145560144560145560145559146559147560147561146560146173144174144173145173145172000000146174146174146342146342146342146341147340147340146342146342146392146391145391145390146390146390147391147392146399145399145398145397146397147397147398147399145434144434144434144434145433147432146434147434147561146560146559146558147559147559148560148560148365146366147364146362148362149362148365149366146414145415145413145412147413147413147413147414147513145512147512147511147511148511147512148513147567146569147567147566147567148567149567149569000000000000000000000000000000148183148184148184148381148381147380148378148379149379148380149381148398147398147397147396147397148396149397149398147409146408146408147407148407149405149406148409148419146420146419146419147419149417148419148419148454148453148452148451148452148452149453148454000000000000000000000000148190149190150191150192149329149329148328147328149327150327151329149330150337148336149336148334149334149334150335150336149371149372148370148369150370151369150370151372)
 (.leaf 149398148398147397147397148396150396150397150398149417147419147417148417149417150417149417150419148435148434147434148432149432150432149434150434148513148514148513147512149512149511149512149514150515148516148515148514148513149514150515150516149564148564149562148560150560151561150561150564149569149569149567148567149567149566149567149568000000000000000000000000150192151192152193000000150345149345000000149345150343150343151346150346151362150361149361150360150360151360150360151362150398149398149397148396150396150397151397151398150519149519150517150517150517150517151518151519152372151372151372150370152371153371152371152372150394149395150394151392151393151393151393151393153327152326000000000000000000000000000000153326152335151335150335152333152333153333153334152335151342152341152341152340152339152339152340152342152374152374151373152372152372152372152373152375152385151385151384152383152383152383152384153385152397151397150397150395152395154395153396154398152428151428151427150426151427152427152427152428152437151437150436150436152435153437152437153437152572152573152572152571153571154571153571152572153333152333153333152331153331154331153332153334152362152363152362153361153361153361154362153363153399152399152398152397154398154397153398153400154405153404153404152402154402154402155404155405152428152428151427151427152427153427153427153428000000153561153561153560000000000000000000000000155354154354154353153353154353154352155354156354153389000000153389153388153387154387154388154389154425152424153424154423154423154422154423155425)))
 (.node 2 (.node 1 (.leaf 153520154520000000000000000000155569154568154567153567153566155567154568155569154569154570154568154568155569155569156569156570154339153340153339153338154338155339157340155341154346154347153345153345155345155344155345155346155357154359155357155357156356156357157358157359154380154380154379154378155378155378156379156380154381154382154381154380154380156380155380155382155405154405155405155404155403157404155404155405000000155412155411154411156411157411157412157413155517154517155516155515155515156515157515156517155332156331155330156329156329158330157330157331155395155394154394154393155393157392156394157394156416156417156416156415157415158415158415158417000000000000000000155519156519157519000000000000156342155343155341155341157341157341157341157343156345155344155343155343156342157343157343157344157346156346155346155345156345157346157347157347158383157383155382155382157382157381158383159383158436157436157435155434156434159434159434159436000000000000157192158191157190158191158192159193158573157573158573158572159573159573000000000000159373159374159373159372159371160371160372160373159405159406158404158403160403160403159404159405159412158412158411159410159410159410159410159411159416159415159415159414159414160414160415160416000000000000158462159461159461160461000000000000160360159360160360159358161359162359162360162360161401160401160400160399161399161399161400161401160431159431159430158430160429161429160431160431161354160354161352161351161352163352163352162354161387160387161387161385161385162387161387162387)
 (.leaf 161416160416160415160414161414161414162415162416160441159441159441160438161440162440161440163441162333162333000000000000000000000000000000163333161392160393160392160391161391162392162393162393163451161452162450161450163450163450164451163452162456162455162454161454162454164454164454162455163427162427162426161425162425163426163426164427163221163221164220164219164219164219165220165221164348164348164348164347165347166348166348166349164364164365164364164363165364166364166365166365165444164444164444164443165443165443165444166444165205163206163206163203000000000000000000165206165226164226164225164224165224166224166225165225000000165335164334000000000000000000000000000000166346165346165345164345166344167345167345167346166348165348165347165346166346167346167346166349164418163418163416163416164416165416166415165417164419164419163418163416164416166415165417165419164421163420163419164419164419165419165419165420166449164450164447165447165448167447167448167448166453164454165452164452166452166452167453166454166222165222165221165220166220167220167221167222166240165240166238165238166238166237166238168240166338166339166337166336000000000000000000000000167352166352166351166350167350168350168351168352167364166365166364166363167362000000000000000000165396164395164395165395165394166395166395166396166404166404166404166403166404167402168404167404166434166434166434165434167432166433166434000000166233165232166232165229166230167230167231167232166233166234165232166232167230167231167232168232000000000000000000000000166243167243167244167245))
 (.node 1 (.leaf 167367167366167365000000000000000000000000166420165421165420165419166419167419167420167422167426166426165426166426166425167425167426167427167234166235166234166233168232168232168234169234167242166242168241167241168241169241169242168242000000168339000000000000000000000000000000000000169347168346167346168345169345170344169344170346167377167376168376168376169376170375170376170377168408168409168408168408168406170407169407170408168445167445167444168443169442170443170444170444169454168454168453167453169452170453170454170454168224167225167224168223169223170223170224169224169400169401169399169399169398169399169399169400168441168442168441169439169440170440170441171441170210168210168208169206170206170208170208171210170219168219169218170217170217171217171218171219000000000000170356170355000000000000000000000000170386169386170386170385170384172385171387171388170409170409170408169407170407171407171408171409170441169441169440170438170439170438172440171441171210171210169210170210171210171210171210172212172223170223169222169221171221172221172222172223172228171227171227171225172225172225172226173227170252169252169251170251171251171250171251172251172394171394171393171392172391173392173392172394171244170244170243170242171242172242172243172244171245170245170244170243171242172243172244172244000000000000000000170255172256172255172256000000172381171381172380171379172379173379173380173381173392172392172391172391172391174390174392174392172397171397171396172395172395174395174395174395172416172416172415172414172414173414172415173416)
 (.leaf 174229173229173229173227173227174227173229174229173237173237173236171233173235174235174236174237172240173239173239173238174238175238173240173240173413172413172412172411172412173411173412173413000000000000000000173565173566175565174567000000000000000000000000172595173595174595000000000000174217173217172215173215174215176215175216175217173225172224172224173224174224174223174224176226174388174387173385173384174386175386176386176387174407174408173408173407175406175405175406176408175442174442174442174441174441176439176442176443174595173595173594173593174593174592175594175595175221174221173219174219175219175219176220176221175380175380174379000000000000000000176379176380176401174401175401175400175399176399176400177401175585000000000000000000175583175584175584175585176402175402176401175400176400177400177401176402177439176438176437176437176437177437177438178439178225177225177224177223177224178224178225179225000000000000175258177256176258177258178259000000176414176414176413176412177412178412177414178414177417176417177416176415177415177416177417178417176428176427177427176425177425177425177427178427177441177440177440177439178439178439179439178441178443177442177441177440177441178441178442178443178220177220177219178218179217180218180219179220179255177255178253177253178251180252180254180254178385177385178385178384179384180384179384178385178400177400177399177398177398179398179399179400179213179213178212179211180211181211180212180213180218179217179217179216180215181215181216181218179247179248178248179246180246181246181247180247))))))
 (.node 16 (.node 8 (.node 4 (.node 2 (.node 1 (.leaf 180420177420178420178417178418180419179419180419179567000000000000177564179565180565180566180567179582179583178583178582180580180580179582179582180593179593179592179590179591181590180592180593180212180211180211179210180210182210181211182212181216179217180215179215180215181215181216182217181236180235180234180233181234181234182234182236181238179237180237180236181236182236182236181237180254180254180252180252180252182251181253182253181394180393180392179392181392182392181393182393181395180395180394180393181394182393182393182394181439179440179439180438180438181438181439182439180567179567178566179565180565180564181566000000182210180210181209180208181208182208183209183209180230180231180230180229181229183228181230182231182247181247181246181246181246182246182247183248181385180387180384180383180384181384181384181385181399180399180398180397180398182397181399181400180403179403180402180401180401181401181403181403181405181405179404179403180403181403181405181405182247182246181246182245182245183245184246184246183252181253182251182250183250184250184251183253181381181381181380181379183380183379182381183381182414181414182414182412182412182413183413182414182589182589182589181589183588184588184589184590183237183236182236182235183235183234184236183237184243183244183242183241184241184242184243184244184251183251183250183249184249184250184251183252183259181258181257182257183257183257183257183258183396183396181395183396183396185395185396184396182422182423182422182421184420185421183421183422184567182568181566183565183566183566185567184568)
 (.leaf 184212184212184211184210185209186209186210185212184243183243184241183241185241186241186242186243183259183260183259183258183257184257184258185258184269182268182267183265183266184267184267184269184412182413183411182411183411184411185411184412184425182426182425183425183425184424184425184426186208185208185206185206186206187205187206187207185381183382185381185379000000000000000000185382185438184438185436184436186436186436186437186438185264184264184263184263186263186262187262186264186404184405184404184402187403186402187403186405187415185414185413184412185412188413186414187414186420184420186418185418185416186416188418186420185569184569184569186568186568186567187569186569000000186587186586186585000000000000000000000000000000186588186587186586000000000000000000000000000000186589186588186587000000000000000000000000185636185636184636186636186636187634187635188637186637186638185636184636185636187635188637187639188205187205187204186204188203189203189205189206187212187212187211187210187210189210189211189211186269185268185268185266186266188267187267187268187385186385187384187384188384188383187384187385187429187429187429187428187429187429187429188429188242186244187243186242187242188241188242188243187271186271186270187270187269188269188270188272188645188644188643187643187642188642188643188644000000000000000000000000187648188648188649189649188217188217188216188213188215189215189215189216188218188218188217188216188216189215189216190218189221188221188220188219188219189219189219189221188224187224187222187221188222189221189222189223))
 (.node 1 (.leaf 188233187233188233188232189232189232189232190234188270187270187269187268189269189268189270189270188396187395187395187394188394189394189395189396189414189414189413188412188412189413190413190414189422188422189422189421190421190420190421190422189438188438188437189435189436190436190437190438190214188213188213189212189212190211190212190214191233189234190234189232190233191232191233192235190262190261189261189261191261191260191261191261190274189273189273189271191272191271191272191273190283189284190283190282190282192282191282191284190397189397189396189395190395191395191396191397191423191424190422190421190421191422191422191424191637191637191636000000000000000000192636193638192230190230191229191228191228192228193229192230191242190242190240190240191240192240193242192241192248191248190248190247191247192248192248192250191251190251190251191248192248192250192250192251192285190286190285190285192285193285192285192285192437191437192436192435192435192435193436193437193646192645192644192642192642194643194643194645193256192258192255192254192255193255193256193256192395191395191394191393192393193393194393193394192399191400191398191397192397193396193398193399192407191407191406192404193404193405193406194408192413192413191411192411192410194411193411193412194642193640193640193639193638194638195640194640194271192271193270193269194269194268194270194270000000000000000000192289194289194288195290000000195386193386194386000000000000000000000000195386193408192407192407192407193406194406194407194408194420193420193419192419193419195418194420194420)
 (.leaf 194215194216194215194214195214196214195214195214194254193255194252193252194252196253195253195254194270194271194270194269194268195269195270195270195386195386194385000000000000000000000000196386194400193400193399193398194398195398195399195400196425194423195423195423194422196421197424196425194430194432194431193429195430195429196429196432000000195649195648195648000000000000000000000000196204195206194204195202197203197202197203196205195209194209194206194206195206197207196207196209195229194230194229195228195228197228196228196228196274195274194274194273195273196274196274196275195401194401194400194399195399196399196400196401195402194402194401194400195400196400196401196402195403194403194402194401195401196401196402196403195435195436195435195434196434196434196435196435196219195219195218195218196218198218197218198220196272195272196272195270196270198271197271197272198222197222196221196219198220198220198221198222197241196240196240196239198238199238198240198241198396196396197395196395197395199394198396199396197406196406196405196404197404199403198405199405197412196411197411196409198410199410198410198411199414196414196413196413197412199413199414198413199230197229197228197227199228200228199228199229199238198238197238197237198237199237199238199238198264198264198263197263198263199263199264200264199413197412197412198411198410199411199411200413199226198226198225198224200224201224200225200226199260198260199259198259199259200260200260201260200386200387000000000000000000000000000000000000200393198394199392199391199392201393200392201393)))
 (.node 2 (.node 1 (.leaf 201236199237199236200236201236202236201236201236201425200423201423201422202421202421202422203425201227201227200226200225202225203225202226202227201395200394201393200392201393202393203395202394201403201404200402200402202402204402203403203404203429202428202428201428201427202427204428204428202243201242201242201241202241204242203242203243202243201244201242201242202242203242203243203243202272202273202272202271203271203270204270204273000000000000000000203284204284205283000000000000203425202425203425203425204424205424204424204425203435202435203433203432203433203432203434204435204214203216203213202213204214205214204214204214204223203223203222203221204221205221205222204222204245203245202244202243203243204244204244204245204248202250202249203248203248204247204248205248205405204405204405203404204404205404206405206405000000000000203440202438204439205439205440205441204212204211203211204211205211207210205211206213205222205221204221205220205220205219205221205221204229203229203228203227205228205227205228205229205281205280205279204279205279205278206280206281205404204404204403204402205402206402206403207404204435204435203434203432205433206433205433205435205214204214205214204212206213206212206213206213205234205233204232204231205232206231206232206233205255204255204253204253205253206254206254206254206265205265205264204263205264207263206265206265206273205273205272204270206271207271206271207273206408206409206408206406207407208407208407207408206237206236206235206234206235207234207236207236206241205240207238205237206237208237207239208239)
 (.leaf 207263205264205263205262206263207263207263207263208415206415207415207414208414208413208414208417000000000000000000000000000000000000207613207614208233206233206232206231207232208232208233208234208282207282207281208280208280208280209281000000207438207438208436208436208436208436208437208438209623208623207622207621207622209623208623209623208226207226207225209224210224210224209224209224210405209405208405209404209404210404210405210406208408209407208406209406209405211406211407210407209630209629209628209628209628209627209629210630209256209256209255209254210254211254211255211256209281209281208280208278210279210278212280211281211390210390210390209390211390212389212390212391211395210394210393210391211391212392212393212394210400209400210398210397211397212397212398211400210404209404209403210402210402211402211403212403210454000000000000000000000000210453210454210455210222210223211221211220211221212221212222213222210256209257209257209256211256212256211256211257210385210384000000000000000000000000211384212384000000000000000000000000000000211450211451211451211231210232211230210230211230212230212231212231212247212247212247212246213246214245214246214247212279210278212278210277213276212277212277212278211422211423211422211421211421212421212421213423213623211622211621210620212622212621212622213622212646211646211645211644211644213644213645212646000000213214213214000000000000000000000000000000214245213245213244213243214243215244215244215244213248212248212247213247214246214246214247214248213428213428212427213426213426214426213426213428))
 (.node 1 (.leaf 212453211454211452211451212452213452213453213453212617212619211617211617213617215616213617213617215244213245214243213243214243214242214243216244213269212269212268214267214268214267214268214270214406214405214405214404214404215404215405216406216263215262215262215261216260217261216261216262214271214270213270213269214270215269215269215270216392215392215391215391215391216391217391217392215393214393215393215392216392217392216392217393214418213419214417213417214416216416215418216418000000000000215434215433000000000000000000000000000000000000000000213637215638216638215638215639215645214645213644213643215643216643215645215645216248214248214248214246216246217246217247218249217260215259216259215259217258218258218258217259216611215611216611214609216609216610216610217611216630216630216630216630216630216630216630217630216642215642214641000000215641216641216642216642218231215232217231217229217230218230219230218232217269215269215269215268216269218269217269217270217393217393216392217392000000217392217393218393217414216414215414215414216413219413218413217414217616217617215616216616218615219615218615218616216639215640215639215638216639217639218640217639218237216237216236216235218235218234218235219237218279217279217278218277218277219277218278218278218406217406218405217404218404218403220404219404000000217431218429218428218429219429000000000000218448217448000000000000000000000000000000219448219243218243218242218241219241220241220242220243219246218246218245219245219244220244220245219246218398217396217396217395219396220396219396219397)
 (.leaf 219450219450218449218448219448220448220449219450219610217611217610218608219608219609219610220610218629217629218626218625218626219625219627220627218654000000219652219651219652221652220653221654220224220224220224218223220224000000000000220225220232218231220230218229221229222229222231222231220243219243219242219241220241221241221242221243220426219424220424219424220424222423222424221426220621218623218621219621219620221619221620220622221241220241220240221239221239222239222240222241221267219269220268220265220266221266222268221267222387221387220386000000000000000000000000222387221389221390220388221387222387222387222388223389221403220403220402220401221401222401221402221403221404219404220403220402220402221402221403221403221601219602219601219600221599221599221601221601221624219625219624219624221622221623222625221625221645221645220644220643220644221643221644221645223230222231222229221229223228223229222229223231222241221241221240221239222239223239223240223241222255221255222253221253223253224252223254223255221263220263220262221261221261223261223262222263222610221610220609222609222608222609224610222610223220222220000000000000000000000000223220224220223241222241222240222239223239224239225240224241223254223254223253222252223252223251225252225253224419223420223419223418223418224418224419224420223450223450223450221449223448223448223450225450222633222634221632221632223632223632224633224634222653222653221653221652223653224653223653223654223262223262223261222260223261225260225261224262223274224273223273222270224272000000000000000000))))
 (.node 4 (.node 2 (.node 1 (.leaf 224404224404223403223402224402224402224403224404224597222598222596222596223595226596225598224598225244224244224243224242225242226242226243226244225259224259224258223257225257225258225258225259225389225389224388000000000000000000000000226389225419224419224418224417224417225416225417225419226427225427225426225425225426226426227427227427225623223624225623223622225621225622225623225624226645224644225644225643226643227642227644227646227233225233226231225231226231227231226232228233226243225243225242225241226241227241227242227243225256225255225254225253226253226255226255227255226593225593225592225591225592227591226593226594225610225610225609224609226608227610226610226611226648226648226647226647227647228646227647228649225658225658224657226656226656227656226656226657226232226232226231227229228229228230227230228232228245227245227245226244227244229244228245229245228398227398227397227396228397229397229398229399226408225407225406225405227406229405227406227407227448227448227448000000000000000000228449229448226612226612226611225610226611228612227612228612228239227239227238228237229237230237230238229239229398228398228397228395228396230395229395230397228413226414227414227413227413228413228413228414228421227421226419227419228419228419228419228420228605226605226604227603228603229603228604228604228619227619228619226617228617228618228619228620228635228634228633228632229633230633230634230635229636228636228636228634228635230635230635230636227659227659226660226659228659228659228659228659230238228238229237228236229236230236230237231238)
 (.leaf 228264229265000000000000000000000000000000229586000000000000000000000000000000000000230591229590229590228588229588231588229589230590228617228617227615227614228614229614229615230615230637229637229636229635230635231635231636231637229647229647228646229646230645230645230646230647000000000000000000000000229664229664230665000000230231228230229230230229230229230229231230232231231395229395230395230395230395231395232395231395230406229406230406230405231405232405231405230406231425230425230425230424230424230424232424000000230594230594230593229592229592231592232593231594230628230628229627229626230626230625230626230628231634230634230633230632231632232632232633232633230641230642230640230640231640231639231640230642231588231588230587000000000000000000000000232588231594230594230593229592231592233592232593232594232635231635231634231634232633233633233634233635232256232256231255231254232254233254233255234257232605232605232605232605232605232604233606232606234239233239233238233237233237235236235237234239234241233241233240233239234239234239235240235241233244233244232243233243234242234242234243234244233416231417233415233415233414234414233416234416000000000000232425232424233424234424233424000000234611233612233610232610233610234610234611235612233660231662233660231659234659234658234659233661234218233218000000000000000000000000235217234219234255233255233254234253234253234254235254234256234403234403233402233401234401236401234402234403234631234631233630233629234629235629235630235631235650233648234648232646235647236646235647236649))
 (.node 1 (.leaf 235652234651234651234650235650236650236651236652235657234658234656233656235654236654235657236657236233235232234232235231235231237231237232237233236618235618235617235616236616237616237617237618237228235229236227236226236227238226238228238228237409236408236408234406237408238407238407237408237604236604236603235603237602237603238603238605237616236616236615236614237615238614238614238615237623236623236622235622237621238621237623238623000000236634235634235633236633237633236634236634238228000000236227237226238225239225238227000000238596236595237595236593238594238593239595238595237603237602237601236601237601238601238602239603238610236611236610236609237609237608238610239610237626236624237624237623238623238624239624239626238628236629237627236627238626239626239627239628238649237649237649237648238648239648239648238649237659237659237658236657238657238657238658238659238248237248237247238247238246238246238248238248238408237408238407238407238406238407238407239408000000237424237423238422238422239422000000000000238621237623238621238620239620240621240621240622238635236635236634236634238635238634238635238635240241239241238240239240240240241240240240240241239413239414237412237412239411241411240412241413240605239605238604239603239603239602241604241604241224240223239223240221240222240221241223242224239256239257239256240255240255241255242256242256239402238402239402238400240401240401240401240402240414240414239413240413240412241412241413241414240639238639239640238639240639241639240639241639239653239653239652240651240651240652240653240654)
 (.leaf 240657239657239656240655240655240656240656240657242225240226241225241224242224000000243224243225240229239229240229239227241228242228241228241229000000242224241223240221242222242221243223244223241235000000241235241234241233243234242234244235242596242596242596242596242596244594243595243596243617242617242617241616242616244615000000000000243629241628242628242627243627244627244627243628242635241635242635241635243635243635244635243635243396243396242395000000000000000000000000243397243635243635243633242633242632243632243633245635242656241655241654241653242654243654243654243655245242243241244241243241245240246240246241246243000000244613244612244611000000000000000000000000244648244649243647243646244646246646246648246649245237244237245236244235245235245235245236245236245248245248245248245246245246246246246247246248000000000000244255244254245254245254000000000000000000000000245663245662245663000000000000000000000000246414246413246413246413000000000000000000246646246646245645245644246644248645247645248646246654246654246653246653246652248653246654246655248226247226247226247225248225248225248226249226000000247411246410247409247409000000000000000000000000246413247412247411000000000000000000000000247592247593246591000000248590000000249592248592249233246234247233247232248232249232250233250233000000247403248403247403000000000000000000000000249226248226248225248224249224250224251225250226249656247657248655247654250655250654250655249657250241250240250239249239250239000000251240251241250649249649248648249647250647250647251648252649)))
 (.node 2 (.node 1 (.leaf 251236250236250235250234251234252234251235252236251241250241250240250239000000251239251240252241250644249643249643249642250642252641251643251644251651250651250650250649252649252649251650251651251235251235251234251233252233252233252234252235000000000000000000251245252245253245252246000000253213000000000000000000000000000000000000253213255223253223254221254220254221256220255222000000254711000000254709000000000000000000255710255710257223255222255222257221256220259221258222257223261221260219259220261218261219261218261219262221000000000000265226264225265225266225265225265226267213000000000000000000000000000000000000000000267224266224266223267222268222268222000000268224271223271222271221271220271221272221000000000000273219273219273217272217272216274215274218274219276212275212000000000000000000000000277211277214277221277220000000277218277219000000278220279221000000277225277224278222278223280223279224000000279222278222279221278220279220280220280221280222280219279219279218279217280217281217281218282219000000000000000000281221282221283221283222000000283222000000282221282220283220284220283221000000089481089481089480000000089480090480090481090481094186093186092186092186093186094186094186095186180426179426180426180425181425182425181426181426181426180426180426180426181426182425182426182426013297000000000000000000013295015295015296015297015293013293013292013291014291015291015292015293015199000000000000000000000000015197000000000000015288014288014287014286015284015285015286016288016219015219016217016217016217017217017218017219)
 (.leaf 15283015282015281015280015281016281016282016283015290015291015290015289016289016288016290016290017190016190016189015188000000018188018189018192017218016218016217016216017216018216018217018218017306016306015304015303017304018304018305018306017254017253017252016252017252019251018253018254017255016255017253017252017253018253018254018255017256016256016255017253017254018254018255018256017257016257016256016255017255018255018256018257017258016258016257016256017256018256018257018258017259016259016258016257017257018257018258018259017260016260016259016258017258018258018259018260017291016291016290016290017290018290018290018291019235018237018236017233019235019234019235019236019249017249017249017248019247019247019249019250018261017261017260017259018259019259019260019261018262017262017261017260018260019260019261019262018263017263017262017261018261019261019262019263019310019309019308018308019308019307019308020310019319018319000000000000019317020317020318020319019263018263018263018262019262020262020263020263019266018266018265018263019263020263020265020266019267018267018266018265019265020265020266020267020268019268019267019266020266021266021267021268020269019269019268019267020267021267021268021269020271019271019270019269020269021269021270021271020291019292019290019290020289021290021290021292021272020272020271020270021270022270022271022272022287020286020285021285021284022284022285022287022305021305021304021303022303022302023304022305022300022300021298021298022297023296023298023299023302021301021301022300022300023299023300023300))
 (.node 1 (.leaf 22305022306022305022304023304023304023304023305024232024232024231024231024230024230024231024232023273022273022272022271023271024271024272024273023274022274022273022272023272024272024273024274023275022275022274022273023273024273024274024275024270023270023269023268024268025268025269025270024298023298023296023296024296025296025297025298025313024313024312025310025311026311026312026313025276024276024275024274025274026274026275026276025277024277024276024275025275026275026276026277026278025278025277025276026276027276027277027278026279025279025278025277026277027277027278027279026280025280025279025278026278027278027279027280026281025281025280025279026279027279027280027281026281025281025281025280026280027280027281027281026284025284025284025282026282027282027284027284026290025290025290025288026288027288027290027290026295025295025293025292026291027291027293027295026296025296025295025295026295027295027295027296026311026312026311026310027310027310027310027311027567025568025568026565027565027567028566028567028560000000000000000000027559028558029559029560000000000000000000027585028585029585000000000000029247029248028246029246000000000000000000000000029259028259029259029257030257031257031258030259029539000000000000000000000000029537029539030539031248030248029247000000000000000000000000031248030254030254030253030252030252032252032253032254029553029553029552029551030551031549031552031553030575030573029572030573030571032572031572031573031269030269030268030267031267032267032268032269000000030581031580030579031579000000000000000000)
 (.leaf 32252032252032251031250032250034251033251034253032266031266031265031264032264033264033265033266032302032301032301031300032300032299032300032301000000032311031308032308032309000000000000000000032568031566030565031564032566033566032566032568033112032112000000000000000000000000034111034112033265032265032264032263033263035264035264035266033548032546033546033546033546034546033547034546033553031555032554032553033551035552034552034555000000000000000000000000033585034585034586033586034562032562033561033558034560035558035561035562034591033591033590033589034591035589035590035593034606000000000000000000000000035604035605035606035111034111000000000000000000000000000000036111034130034131033129033128035129037127036128036129035531034533034532034529035531035531037532036531000000000000000000000000035649036649036650000000037271036270036270036269037269038268038270038271036291036290036290036289036289036289036290036291036529035529036527035525000000000000037526037527036554035556035553035552037553037552037553037556036577035577034576035575036575037573037576037577035581035580035579034578036580036579037581037582036583034585034584035581036581037583036583037583036604034603035601035600036602038602036603036603000000000000000000000000036657037657036657036659037133035134035134036133037131000000000000000000037144000000000000000000037144037143038143038144037190036190000000000000000000038190037190039191037201035202035202035199037199039201039201000000037534036534036531037532037532037531038531038532038549037548037548037548037546038548038549038550)))))
 (.node 8 (.node 4 (.node 2 (.node 1 (.leaf 37591037591036590036589037589038589039590037592000000000000000000000000038046038045038045038048038259038260037258037257000000000000039258039259037574036572036572037570038570038570039571038572037637000000037636000000037635038637038637038638038647036647036646036645038645038644039646039647038650036650036649036648037648039648038648038649000000000000000000000000000000040034040035039036000000000000000000000000000000039063040062039065039206038206038205039205039204000000000000040206039258038258000000000000000000000000000000000000040272039272039272039270040271041270041271041272039302038302038301039300039300039299041300039301039495038495038494000000000000000000000000040495039522039521039520038518039520039518040519040522039586038586037587038586038584039585041587040588000000000000000000000000000000040098000000041098041146040145040145039145040145041145000000000000040262040262039261039260039260041260041261041262041274040274040273040272041272042272042273042274041275040275040274040273041273042273042274042275041276040276040275040274041274042274042275042276041277040277040276040275041275042275042276042278041279040278040277040276041276042276042278042278039414039415000000039413040413041413041414042413039551039549038548038548040549041547040548041551040562039562038562039562040562041562040562042564040581039581039580039579040579042579042579042580039653039654039653040652040652042651042653041654040677038676038676039675040675041675041676041677041114000000000000000000041112042112041114041114042271041271041270041270041269042269042270042271)
 (.leaf 42272041272041271041270042270042270042271042272042280041279041279041277042278043277043279043280041285041285041283040281042281043282043283043283041291041291041289041289041289042289041289041291040529040528040527040526040528041528041529041529041538041539040537041536041536042538041537042538041606040606041604040604041604042604042605041605041666041665041664040664041664041663042663043665041710000000000000000000040708041709041709042710042047041047041046041045042045044044043044042047000000041144041143042142000000000000000000000000042172041172000000000000000000000000043171043174000000042209041208000000000000000000000000000000042259041259000000000000000000043257044259044260042418041418042415042415042416043414042417043418042424040424040423040422042422042422042422042423042500041502041499041498042498043498043499043502042519041519040518042518043517043517043518043519042540041540041539041538042538043538043539043540042607040607041606041605042605043605044606043607042610041610041609040609042608043608043609043610042625040624040624041623042623043623043624042625042631041631041630040629042631043629043630044632042645042645041642041641042643044642043644043645041709040708041707040706042706044707042707042708043109042109042108041107043107044107044108043109042115041114042112042111042112044111043113044113043179000000000000000000043179043179044180043181000000000000042196042195043195044195044196000000043270042270042269042268043268043268043270043270044281043281043280043279044279045279045280045281000000000000000000000000000000043439044440000000))
 (.node 1 (.leaf 43538042538041537042538043536044536044537044538043557043555043555042555043555044553044556044557043580042580042579043577043578044578044579043579044606041605042605042604043604044604044605044606043664041663041663042662043662043662045662043664044006000000000000000000044004045002045005044006044043044044043042043041043042045041045042045043044129043129042127042126044127045127045128044129043152000000000000000000044151044150044151044152044167000000000000000000043163045165044165044167044214043214043213000000000000000000000000000000044265042266043264043263044263045263045264045265044404043404043403044402045402046402045403045404044536043536043535043534043535045534045535046536044578043578043577043576044576045576045577045578044590043590043589043588044588045588045589045590044610043610043609043608044608045608045609045610044642044642043641043638044640044640045641044641046068045066044067044066045066047065046065046066046072044071045071044071046069046069046070046071045084044086044083044082046084046084045084046084045172043174044173043171045170045171046173045173045264044264044263044262045262046262045263045264046400044400044399044398045398046398046399046400046405045405044404044403045403046403046404047405045415045416043414045415045415047414047414046415045440044440043439044438045438047437046439045440045486044488045486043485046485046484047485045486045550045552045550043548046549046550047550046550045579044579044578044577045577046575047577046579045595045595043594044593045593046593046594046595045610044610044609044608045608046608046609046610)
 (.leaf 45623043623044622044621045621045620045621046623044626044627044626043625044625045625046624046627045634044634044633044632045632045633046633045634045664043664045662043662045662046662045663046664045671044673044672044671044670045670046670046671045695043696044694044693045695046693046694046695045707044707045707045707045707047706047707047707046045046046045044045043045044047043047046048046046055046056045056045053047053047053046055047055046073045073046072046072046071046071047072046074046143000000045142045141046141047141046142046142046220046221046220045218046218046218046219047220000000000000046291045291047290000000000000000000047401045401046400045399046399048399048400047401047411046411046410045410046408048409047409047410000000045425000000000000046425047425047426047427045464044464045464045463046463047461047464046464046465044466045464044464045464046464046464047465046473045473046473045471047472047471047472048474046567044568045568045565046567047567047568046568046597045597044596045595046595047595047596047597045625044625045624045623046623047623046623046624047659045659045658045657046657046657046658047659046691046691044691045689046689047691046690046691046069046069046068046067047067048069047069047069047094045095046093045092046093048092048093047095047103046103047103046101046101048101048102048103047114047113047112045111047112048110048111048112047122047123046121046120047120048120048121048122000000047283047283047282000000000000000000000000047496046498046497046496047494048494048497047496047531047529046528047527047529048529048530048531)))
 (.node 2 (.node 1 (.leaf 48541047541046542045539047539048539048540048541048589046590047588046588047588048588048589048590047609046609046608046607047607047608049608048609046632045631045630046628047630047629048631048632047633046633045633046633047633047633048632047634047649045651045650046647047647047649047649047649048087046086047084047083048085048085049086048087000000000000000000048187000000000000000000049187048277048277047276047275048275048275049276049277048401047401048400048399049399050399049400049401049425047425046424048422048423049423050423049425048451047453046451048449048449048449048450050451048554047554048552047552048552050552050552049554048561048560048559047559049559049559049560049561048575047575047572048572048573048573049574049575048583047581046580047581048581050580049582050583048685046686046686046684048683049683048685049687048698048699047699047698049697050697049697050700049712047711048711047711048711049709049712049713049026047026000000000000000000000000000000000000049088048088048087048086049086049085050085050086049134047134048133049133049132051133051133049135049216047218048217048214049214050216050217049216049225000000000000048223049223050221049222050223049400048400049399048398049398050398051399050400049412048412049411048410049410050410050411050412048464048464049462049461049462050462050463049463049491048491047491047491048491049489049490050491049507049507048506047505049505049506049507049507049550048550048549048546049548051547050549051550050552048553048552049551049551050551050552050553049560048560049559049558050558050558050559050560)
 (.leaf 50607048607048606049604049605050603050606051607049612048612048611048610049610050610050611050612048662048661047661048661049661050661050662049662049670049671049671049670049668050668050669050670050715048714049714048714050714000000000000000000050117049119049116049115050117050116051116051117050125050127049124048124050123051125050125051125050142050142050140049140050138051140051141051142051172049170050170050169050170051170051171052172051397050397049396050395051395052394051396052397051399050399049398050397051397052397051398052399050427049427049426049425050425050424052426051427049467049466049465049464049465051466051467050466050518049516048516049516049516050514050516000000050566049568049565050564050564051564051565052567051578050578049578049577050577051577050578052578051643049644049643050641050642051642051643051644050662049662049661049660050660050659050661051662050672049672049671049670050670051670050672051674049704049705049704049703050703050702051702051703050078050078050077049076051078053078052079052080051106049104050105050102051104052104051103052106051129050129050128051128052127053127052128053130051143050143050142050141051141052141051142053142051265051265051265050263051263051263051264051265000000000000000000051276051277000000000000000000052394051395051393050393052393053393053394052393051414051415050413050412050413052414053414053416000000000000050429050428051428052428051428052428051452050452050451049450051452052450053452051453051513050515050514050513051513052513051513052513050611050611050610050609051611052611051612051613))
 (.node 1 (.leaf 51632050632050631051631052631052632053633053633051648051649050649050646051646051646052647052650051669050669050668050667050668051668051668052671051152051152050150050148052150053150052151053150052450051452051449051448051448053448052450052451052496052496051495050495052494052494053495052496052527051527052526051525052525052526052527052527052541051541052541051539052539053539053540053541052560051560051559051558052560053558052560053560052646050646051645051644051643052644053643052644051681050682051682051681052681052681053682054682052693052692051690052691052691054691053690054692053043053043053043052041054041053042053043053043053073052075052074052071052072054071053073054075053093052093052092052091052092054091054092054093054127053126051125053124053125055124054126054127053392052392053391053389053390054390054391055392053457053458051457052455053455054455055457055457053555052553052552052551053553055553053552055554053594052594052593053591053592055591054591054594052708052708052707053705053706053706054707054708054050054050053049053048054048056048054050054051054061052062053060054059055059055059055060054062054116052118052115053114054114055114055115054116054260053260053259000000000000000000000000000000055392054393053392053391054391054391056392055393054420053420053419054420055419056419055421056422054483053485053484052483054483055483054483055483054534053534052534053534054534055532054533055536054561054562053560052560053559056560055562054562054571053571053570052569054571055571054571055573053587053587054586053585053584055585054585055587)
 (.leaf 54631053631053630054629054629054630054630055631054665053667052666054664053665054664055664054666054080053080054079053079054079055079055080056080055094054094054093054092055092056094055094055094056131054131055131055129056131056131057130056131055139054139054138054137055137057138057139056139055152053150053150054150055150055149056149055151000000054174055173054172055172056172000000000000056417054416054415055415055416057415057416056416056430054430055429055428055428056428056429056430055439054439053438053438055439055438056438056439054473054473054472053471054472057472055473056473055634054634054633054632055632056632056633057635055656055655055655054654055654056654055654057656000000000000000000054686055686000000000000000000057071055069056069055069056069057067057070058070056108056108054106056106057106058104057107056108056143055143055142055141056141056141057142058143056392056392054391056390055389058389057391057392057411055411056411056410057411057411057412058413056432055434056432056431057431057430057431057432055445055445054445055445056445057445056445057445056468055468056469055468056466057468056467057468056511056512056511055511056509057509057510057511056562054562054562055562056560056561057561057562055579055580055579055576056578057578056578056579056612056611055611056609056610057610056611057612056631055631054630054630055631056630057630057631056691055691055690000000055689056691056692058692057072055074057071057071057070058070058071058074056090056089055088055088056087058089057089058089056133056132056131057130057130058132057132057133))))
 (.node 4 (.node 2 (.node 1 (.leaf 57153056153055151056149057151058151058152057152057169056169056168056167057167058167058168058169057172056172056171057170058170059170058171000000057208055208055208056206057206059206058207059209057370056370000000000000000000000000000000058370057404056406056403056402057402058402059403059404057461056461056460055460057461057460058460058461057524057524057523057522057522057522058523059525057545056545055544055544057545057544057546057546058029057029000000000000000000000000000000000000058094056092057093057090057091058090060092058092058125057125057124057123058125058124059124059127058159056158057156056157058157059155059158059159058167057167057166058165058165059165059166059167059382058383058381058381059380060380060382060382059391057392057391058389058390059390060391059392058455057455057454057453058453059453059454058455058588057588058587056585058586058586059587059588057617057617057616057615058615060615060616060617060103059103058103059101059102060102060103060104059140058140059140058138059138061140059140060140060384059383059383059382060382061381061383060385059469059468059467058465059467059467060468060469059473059474059473059471060472060473061473059474060492059491058489059489059490060490060491060492059526059526059526059525060524061525061525060526059538058538058537059536059536060536060537060538059565058565058564058563059563059564059564060565059592058592058591058590058590059590060589060590059634059635058633058632058632059632061634060634059640059641058641059639059638061639061640060642000000059690058691058688000000000000000000000000)
 (.leaf 61048059047060047059045060045062045061046061047060048059050059047060047060046061046061047061048060118059118058117058117060116062118060117062119060160059160058161058159060160061160062161062161059206059206059205059204060204061204061205060206060217060217059216060215060215060214061216060216061387060386060386060386061385062385062386062386000000000000000000000000000000000000000000060416060506058507059507059504059504061506060506061506060565059565059564059563059564061563062565062567060576058575059575059574059574060574061575061576060612058612059611059610060610060610061611062612061658060658059657060656060656000000000000000000000000000000059669059668060668000000000000000000061084061084061084060084000000000000000000000000061148060150060147061147061146062148061148062148000000060397061396061395061395000000000000000000061435061436059435059434061435063435062436063437061443059442061441061441061441063441061440062443061486060486060485060484061484062484063485063485061503060503059502060501060501061502062504061503061515059514059512060511061513062513061513061514061546059545061543060542061542061543062543061544061558061560061559060556062557063557062557062558000000061646061645061645000000000000000000000000061114061114061113061112062114063114062114062115061115061115061114061113061114062114062115062115061124061124062123062122062122063120064123062123062156061156060155061152062154062154063153064155062165062165061164062162062163063163062163063165000000000000000000061170061170062170063171062171062206060206061205061204062204000000063205062207))
 (.node 1 (.leaf 62425060426061424061423063423062424063424062426063435061435061434061433062433063431064432063435063485061486060484061484062484063484063485063486062538060539061539061538062536062536063537062538061585060585060585061584062584062583062584062585062597061597061596061595062595062595063596062596062610060610061609061608062608063608062608063608062629060629061628062627062627062626063626063629062635062636061634061633063634063633064634063635064092063091063091000000000000000000000000000000064101061101061100061100063098063098063100064100062136062136062135061134063134063132064133065135063216063216062215062214063214064214063214063216000000000000062394062393063393064393000000000000063451063449063449062449064447064447065450065450064451062451063450063449063451065450064450064451063462061462063462062460062460065461065462063463063476062476062475062474063474065474065476063477064222062221062220062220064220064220064221064221063225000000000000000000063224064224064225065225064415063415062414062414064415066413065416064416064488064488063487063486064486064486066487066488064596063596062596063596064596064595065597065598064614063614062614063614064614065612064613065614065567063568065568065565065565066567065567066567066132066134066131065130065130067132066132066132066138065138064137065136065136066137066138067138066207065207065206000000000000000000067206067207066230065230065229064229065228067228066230067230066475065475065474064473066473068473067474067475066491065491065490065489066489067489067490067491065498064498065498064497066497067497066497067499)
 (.leaf 66512064512065511065510066510067510068512068513066555065555064554065553065554066555066556066556066619065619065618065617066617067617066617067619066624066624065623065622065622066623066624067624067113066113067111067111067111067111068112067111067166066166065164065164067164067164068165067166067431066431066430066427067429067429067429068429067444067444067442066442067442067441068443068444067489066489066488066487067487067487068488067489067549065549066550066547066547067548068548067550067575065576066576065574067575068575067575068575067604065605065603066602066602067603068605067604067681066681066680066677068679068679067679068679068104067104068104067102069104070103069103069104068210067210067209067208068208069208069209069210068517067517067516067515068515069515070517069517068580066582066580068579069578069578069579068581068593067593067592067591068591069591069592069593069101069101068102069100000000000000070102071102070133067132068132067130069131069131069132070133069165068165067164068163069163069163070164069164069174067174068173068172068172069172070171069174069213068213068212068211069211070211069212070213069420067421067420068418069418069418069420071420069488068488067487068486069486069485071486070488069528067529068527067527069526070526070527069529069544068544068541068540069542070542069543069543069558067558068559067556068557070558069558070558069563069562069562068559069561069560069561070563070590068590069588067588068588070586070589070590068601068602069600068600069600069599070601070602069172068172068171069170070170071170070171071170)))
 (.node 2 (.node 1 (.leaf 69180069180069177068177070178070177071179071180070186068185069183068183070184072184071185070185069240000000000000069238070238072238072238072240070409069409069408070407070407070408071408071409070422069422069421069420071420072421072421072423070445069445068444068444071444070443071444071445070517069517070517069515070515071515071516072517070570068571068571070569069570070569070570070571070614070613069611069610070612072612072612071614070617070618070617070616070615070616070616071617071115070115069114070113072114073114071114071116071130071130069129070126071128072128071128072130071141070141070140070137071139072139072140073141071158070158071156071156072155072156072157072158071220070220069221070220071220072220071220071221072230070229071229070229071229072229072230072231071435070435070434070431071433071432071432072433071453070453070452070451070450072451071451072451071486069485070485071483071484072484071485072486071534070534069533070532071534073533071534072534070629070630070629070628071628071627072627071628072113072113071112071109072111072110073112073113072214071214071213072213072212073212073213073214000000000000000000000000072245072245072245072247072489070489070489071489072489073489073490072489072515071515072514071513072513073513073514073515072529072530071528070527072527073527073528073531072547071547071546072546072545072545073546073547072578071578071577072576072576073576074577073578072133072133072132071131073131073130075132074133073140072140072139072138072138073138074139073139072156072156072155072154073154074154074155074156)
 (.leaf 72177072175071175071174073175073174074176073176073194072194072193073192073192074192074193074194073391071391071391071390073389074389074390074391073409073409072408072407072407074407075410075410073515072515072514072513073513000000074514000000073542073542072541073538073540074540073540074542072563072563072562071561073561073560074562074563072587072588071587072586073586074586073587073587074156072156072154073154074154076154076154075156074166073166073165073164074164074164075165075166073185073185074183074182074183075183075184075185074341073341000000000000000000000000075340075343074378072379073377073376073377074378075377074379074420074420074418073418075417075418076419076419075422073421074421074420075420075421076421076421074437074438074438073437074437074436076438076438074462073462073461073460074460075460075461074464074472073472073471072472075470076470075473076473073487072487073487074486074486000000000000074487073506000000000000073506074506075506074506074508074527073525072524073525073525074525075526075527074551074551074551074550075549075549074550074551073566073566072566073566074566075566074567075568074575073575074574074574074573075573075574075575075593073592073591074591074592075592076593075594073601073601073600073599074599074598074600075601074623072625074623073621075621075621075622076624075136075136074135074134075134076134077134000000075169074169074168074167075167076167075169075169075185073185074184074183075183075183077184075185075211073212074210074209075209077210077211077212075384074384074383073382074383075383076383076384))
 (.node 1 (.leaf 75394073395074393074392074393076392076393075395075406074406073405074404074404076404075406075407075415075415075414074413075413075413075414075415075473073471075470075470076470076469076470075471074567074567073566074567074567075567076568076569075577075577074576074575075575076575076576076577076612074612073610074610075610075609076611076612076122076122075123076121076120077120078121078124077240076239076239075239077238078238077240078240076426075426076426075424077424077424077425077426076429076429075428075427077427077427077428078429076445076446075444076444077444077443078445077447076456075456075455076454076454078454078455078456076477075477076477076476076477077475077476077477076524075526074525075522075524077522077523076525076534075534074533074533076534076533076534076535076587074586076584076583076583077585076585076587076601075601074601075601075601077599077600076603077633074634075633074632076632076631077633077634077181076181076180076179076179077179077179078181078212077213077212077211077210078210077212077213077367076367000000000000000000078367078368077368076387075388076386076385076385077385078386077387077392076392076391076390076390079391077393077393076414075415075414075413076413077412078412077413076471076470076469076468078468078468078469077470077500076500076499076498076498078498079499078500000000075514000000000000077513077513078514077514077554076554075553077553077552077553077553078554077579076579075579076577078577078577079578078579078118078119077117078117079117079116079117079118078136078136077135077134078134079134080135079136)
 (.leaf 78154077154078153078152078152079150079151080153079157077159078157077157079157080157080158080158078185077185077184076183078183080182080183080183077191077192077191077190078190079190079191078190077202000000077200000000077200078200078201078201078205077205077204077203078203078204079204078206079222077222078222077222079221080222080223080223077372076371077372077369078371078370078371080372078406076404077403076403077403078403078404079404078572078572077571076569078570078570080570079572078624078624078624077624078622078622079623079624079174079175078173079173079172079172080173080176078197078197077196077195079195079194080196079196078198077198078197077196078196080196079196079197000000079234079233079232000000000000000000000000000000079237079236079235000000000000000000000000078374078374077373077373080373079374080375079375079377077378079376079376079375080375080376079377080449079448078449078446079446081447081448080448079505078505078504077503079503080503080504079506079533078533078532077532079533080531079533080533079550077551077551078548079548080548079549079550080565079566078565079563079564081564080565080566079578079578078577078576079576080578079577080578079197078198078198078197079196080196080197081197079205079204078204078203080202080202080204080204080206080206078206079204079205080204081205080207080488079488080487079488081486081486082488081488080528079530080528079526080526081528080527081528080562078562080561079560080560081560081561081562080591079591079590080589080589080588081590081591080219080217081217081215082215082215083217083218)))))))))
 (.node 128 (.node 64 (.node 32 (.node 16 (.node 8 (.node 4 (.node 2 (.node 1 (.leaf 81223081222080222082222000000000000000000082428081427081427081427082427083426082428082429082460081460081460081459081459083458083459000000082542079543081541080541081541081540082542082543080585080585081584081583081583082583081583081585081599080599081598079598081597082599081599082599081610080610081610081609081610083609083609082610082141082141081140000000082139084139082140082140082158081158081157082156083156084155083157083158082174082174082173081172082172083172082174083174082364081364081363081362081363082364082364082365082385082385081384082383082383083383082384083385082414082413082412082411082412083412083413084414082437082436082435082435082435083433082435084436082468082469081467081466082466084467083467083468082484082483082483081482082482084482084482083484082488081488082488081486000000083486083487083488082502080503080502082501082500083500082501082502082561081561081560000000082559083559083560082560082630081628082628081626082628083628083629082630083131082129083129082127082127083127084128085131082386082387082386082385083385083384083385083385083404082404083403083403084402083403083404083404084422083421083421083419083420084420085421084422082566082567082566081564083565084565083565084567083595081595082594081593082593083593083594084595085131083131083128082127083127085127085128084129084155084154083154083153083152084153085152085155084202082203084202082201084200086201085201084202085215082215084214084213084214085214086214086215084376082378082375082375083375085376084376085376085462084462084461084460085460086460000000000000)
 (.leaf 84467083467084467083465085465086466085466085467084534083534084533084533084532085534000000084534084630082631082631082630083629085628084630084631085146084146084145084144085144086144085144087146085362084362085361084360085360085360086361085362085365083366084364084363085363085364086364085365085417085417085415085415085415086415087415087416085443084443084442084441085441085442086442086443086471084471085471084469085469086469086470087472085490084490084489000000084488000000086489087491085496084496085495085495086495087494086495086496084552084552085551084550084551087550085552086552085571084571085571084569084570087570087571087573084594084595083594083593085593085593085593085594084629083629083628084627085627085626086628085628085137084137085137085136085136087136088136086136086166085166086165086164087163088163087165086166086172086173085173085172087171088171088172088173086224086225086224085224086224086223087225088226086517086518085518086516086515086516087516087517086581085581086579085579086579088578088579088580086607086607085606085605086605088604087606087607086629084630085628084629085628086628088628087629088370086369087369086367086367087368089369088369087393087393086392087391088391089391088392089392087470086470086469086468087468087468087469087471087496086496086495087494088494088494088495088496087516086516086515086514086515087514087515087516087538087538087538086536086536088536088537088538087612086612087612086612087612088612088613088614087144087144086143087142088142089142088142089144088210088209088208087208088208089208088209088209))
 (.node 1 (.leaf 88370088371088370088369089369090369090369089370088404087404086403087402088402089402088403090405089416088416088414088414088415089415089416089417088450087450087449087446088448090448089449089450088508087508088507088507000000089508088507089508088534087534088533088533088532089532089533089534088626086625086624087624088624088624089625089626089129087130087129087128089127089128090130089130088149087149087148087148088147089148089148089149090159089159088159088158089158090158091159090158089163088163089163089163090163090163091163090163089196089196089196089195090195091195091195090196089381089381089379089379089379089378089380089380089394089393089392088392089392090392089393090392090410088408089408088406090406091408091408091410089441087442088442088439089439089439090440089442089469087469087468088467089467089468089469089469090499089499089499089498090497090497090498090499090569000000088569089567089568000000090567090568089608088608088607088606089606090606089607089607088619088619087619087618089619090619089619090621089626087627088627088626089626090624089626089627090143088144089144088142090143090143091144090143090359090359090359000000089358090357090358091359090452089452089451089450090450091450091451091452090525090526090525088524090525090524090525091525090534089534089533089532089532090533090533090535089607088607089606089605090605091605092606092606090156090156090155091154091154092154091155092156090172090173089172090171091171092171091171091171092195091195091195090194091194091193092195093195091361090361090360090359091359091360091361091362)
 (.leaf 91489089489090488090487091487091487091488091489091605090605090604091603091603092603092604092605092156090156091155091154092154092154092155092155092161092161091160091159092159092158093160094161000000092221092220092220000000000000000000000000093452091452091451091450092450093448093451093452092500090500091499000000091499093498092501092501092524090525090524092522092522093524092524093524092614090615090614091612091612093614092614093616093135092135093135092135094134094133094134093135094181093180093180092180093178095179095180095181093601091601092600092599093599094599093600094601094124092125093125092123000000094123094124094125095150093150092149092147094148095146095149095150094159092158093158092156094157095157095158096159094214094214094214093212094212096213096214095214094511092512092512093509093509095511094511094511095533095532094530094529095531096531097531096531000000095558095557094557095557096557096558000000096113095113094112094111096111096111097112098114096135096136096135096134097134000000097134097135096179095179096178095177096177098177098177097177096360096359096358096357096358096358097359097360097414095415096413095411096413098412098412097413097451096451096449096448096449097449097450098451096478094478095477095476096476097476096478096479097595095596096594096593096594098594097595098595096613094614095614094612096611098611096613096614096164096164097163096162097162098162098163097164098175097175096174097173097173099172098174099174098179097179097178096179097177098177099179099179097181097182096180097179098179099179098180097182)))
 (.node 2 (.node 1 (.leaf 97207097208097208096207098206099206099208098209096350097349096348096347097347097348098348097350000000000000000000000000096432098433097433097434097510097511096511096508097508097509098511098512098123098124096123000000097122000000100122100124099141096142097140098140098141100140099140100141098198098199098199098197099197099196100198099198000000000000098212096211000000000000000000000000097518097518097517097516098516099514099517099518098153098154098153099151099152099151099152100154099161098161098160099159099159100159099160100161099185099186098184097184100185100185101184101185099421097422097421097421098420100421100422100423099550099550099549099549099548099549099550099551099591099590098590098589099589100589099589101591101116099115100115099115100115102115102115102116100350100350099351099348100348101348101349102351101450000000099448100449101448101449101450102451100493100493100492099491099491102492101492101493100529099529099528099527100527100527100528100529099561099561098559099559099558100558100559101559101134101135101134099132102133000000101134102136101142099143099142099140102141103140101142101142101349100349100348100347102347102347101348102349102437101436100435100434101436102436103437102436101515100515100514100513101513101512101513102515100525100525100524100523100523101523101523101524100529100529100528100527100527101527101528101529100530100530100529100528100528101528101529101530102163101163100162101161102161103161103162103163102430102430101429100429102428103428000000104431102441102441101440102439102439104440104441104442)
 (.leaf 102485100485101484100483101483102484102485102485102489101489101488101487102487102488103488103489102500102500102500101498103498104499104500103500102547102548102547102546000000102546000000103547103154102154103152103151103152103152103153103153102176102176102175102174103174103173103174103176103196101196102195103195103194103194103195103197103504103504102503103502103502104502104503104504102525101524101523101523102523103523103523103524103543103543102540102539103541104539103541103541103590102590102589102588103588103588104589104590104349104350104349102347104347105347104348104349104414103414000000000000000000000000000000000000104450104450104450103450104450104450104450105450104471103471103470104470104469105469105470105471104502103502103501103500104500105500104502104502103528102529102528102527103526104526104527104527104532102533102532102532103531104530105531104533104547103547000000102546000000105547104547105549105140105141105140105138105138106140105140106142105160104160104159104158105158106158106159106160000000000000105206105205105205106205107206107206000000000000000000000000000000105380000000000000105444104444104443105444106443106442106445107446105457105456104454103454105455106455105455105455104514103514104513104512105512106512105512105513106566103565103565103564105564107564107564107565107162105162106161105160106160107160107161108162106170105170106170106170107169108169107169108170000000105431106431106430000000000000000000107431106492105492104491104490105491106491107491106493105519104519104518104517106517106516107516106518))
 (.node 1 (.leaf 106560106562106560106560106560107560107561107562107584105583106583105581106581108582107582108584107187107188105186106185107185108185107186107188000000107206107206106205107205108205109206000000107363000000000000000000108361108361107362108365107431000000000000000000000000000000000000107432107473106473106472107473108472109472107473107474107553106553106552106551106552108551108554108555106590106591105589106589107589109588107590108591109148108147108147107147109146110146109146109149109178107177108177107177108177109177110177110178108190108190106190106189108188110188109189109190108486106487106486106485107485108486108486109486107568106569107568107567107566108566108567110569109137108137107136108137110136111136110138109138108155108155109154109153109153111151110154110155110448108447109447109446110447111446111447111448110463109463109462109462109462110462110463111463110549107549108549108548109548110548110549111550110161110161109160109159110159111159111160111161111166109167109166109165110165112164111166112166110354000000000000000000109353110354110354111354111372110371110371109369110371111371111372111373111463110463110463109462110462110461111463000000111503110503110502110502111501111502111503111504110514110516110515109512109512110512111513110515110579109579110577110576110577111577111578110578111595109596110593110593110594112594111595111596112152111151111151110151111151113151113151000000000000000000111204111203111204000000000000000000111346000000000000000000000000000000000000112346111450110450111450111448112449113449113450113450)
 (.leaf 111470110472110471111468111470112470111471111471111486109487109485110484111484112484112485113487111547110549110548110547111547111547111547112547111576111576111574110574111574112572113574113575000000000000000000000000111599112599111600000000000000112201112201112201112201113201000000000000112377112378111376111375112375112376112377112377112444111444111443111442111441112442112442112443112481111481112481111481112481112481112481113481112561112561112559112558112559114559112559113561113138112138112137112136113136113136113138114138113161112161112160111159113159113159114160114161114188112187113187112185114185115186115187115187113201112201112200113199114199000000000000000000114455113455112453113454114452115453115454114456113491113492113491112491114489115490114490114491113509111509111509113507114508115507114508114509114591113592112591113590114589114590115591114592115176114176114175113175114175116175116176116176114484114485114483113482115482116483115483116484115507114508114507113505115505116505115506116507115560112559114559114557114558115558116559116560115571114571114570113570114570116569115571116571114579114578114577114576114577114577114577114578000000000000000000115197115198000000000000000000114447114447114446114445115445115445115446116447115458114458114457115457116457117457115457115459114467114467114466115465115465116465115465116465116501114502114501114500115500115499116501117501114520115519113519113517116518116517116518115519114592114593114592115591115591115590115592115592116160116159116158115158117158117158117159116160))))
 (.node 4 (.node 2 (.node 1 (.leaf 117184115183116183116182117182118182118183118184116189115189116189115187117187118188118189118190000000115198116197116195116196117196118197000000116448114447114447115446115446116446116446116448116470114471115469114469117469117470116470116470117482116483116482115482116482117482000000117482116493116493115492116491117491117491117492117493116518114518116518116517116516117518116518116518000000116537116537000000116537116535116537116538115554115554115553116554116554117554118554118556117170117170117168116168118167119167118169119170116371115371115370116370116370117369117370117371118475117474117474116474117474118472118475118476117484117484117483117482117482117483117484117484118507117507117506117505118505118505119506119507117549116547117547117547117547118547119548119548117563116563117563116563118562119562118564119564118133117133000000000000000000000000000000000000119173118172118172118171119171120172120172120173118355117355118355118354118355120355120356120356117366118364118364118363119363120362119363119366117369116370117369117368118368119368118368118369117373116373116372116371117371118371118372118373118374116375117373116373117373118373118373118374117378117378116377116376117377118377118378118378117390117390116388117388118388118388118389118390117391000000000000117390117390118390118390118390118435118436117434118435118435119435119436118436118457118458118456118456119456120457000000000000117483117482000000117482118482119482118482118483119572118572117572118570118571119571119572120572120172119172119171119170120170000000000000000000)
 (.leaf 119181119180119179000000120180121181000000120353118351119351118351120351120351121351121352120362119363119362119361120362120360121361120362118372117373117371117370118370119370119371119372119404119405119404119402119402119402119404119405119569119569119567118567119567120567121567120569000000000000117602118601119601119600119601120603120347120348119348120346120345120345122347122348121360120360120359119359121357122358122359122359119452118452118451118450120451120451120451121453120478120479119477000000119477120478120478121478120542119542120543119542121541121542121543121544121141121142121141121140122140123140121141121142120439120440120439119437120437122438121438121440000000119468119468121467121468122466123469121469121489121490121489119488121489122487121489123490121507121508121507121505122505122505122506122507121530121530121528120528122527123527123528123529123137122136122136000000000000000000000000000000000000121151121150000000122149123149122149000000123167122166122165121165122165124165000000000000122414120414121413000000121411123412122412122413121446120445120444120444122444123444124445123446123495122495122495121495122495123495124495123495122508121508121507121506122506122506123507123508123515122515122514122512122512123514124515124516123518122517122516122515123515124516124517124517000000123166122165123163123164125164125165000000123358122358123356123356123356125355124355124358122402121402121401121400123401123401123401123403123463123464123463121461000000000000000000000000124522122522123522123522124521125522125522125524))
 (.node 1 (.leaf 124386124385124385123384124384124384125385125386000000000000000000123457124457125457125458000000125477122478124476124476124477125477000000125477125522124522124521124520125521126521126522126523125347124347124346125346125345126345126346127348126355125355125354124354125354127354127354127355125375124375124374124373125373125373126374126375124487123488123486123486125487126487125487126487126528125526125526124524125526127526127527127527126548125549125548124548126547126546126547126548124575124576125574123572125574126574125574126576125582124580123580124580125580125579125580125581127162126161126161126160126160126160127161127162126196125198126195126195000000000000000000128197126334125334125333000000125333126333126334126334126364125364126364126363127363127362127363127364125371124372124370124370127368127368126370127370126384124384124383124382126382126381127383126384125410125410124410124409125409126409126410126411126456125456125455125454126454126453127455127456000000000000000000125458126458126458127459127460127521126521126520126519127519127519128520128521127535126534126534126534127533127532128534128535125585124586124584125582126584126583126584126585126589124590125590126588126589127589126589128590128143126142127142000000000000000000128141129142126334125333125333000000127331127332127333129334127392126392127392127391000000127391127392129393127490127491127490126490000000128490128491129491128513126514127513127511127512128512128513127514127527127527127526126525127525128525129526128527128531127531127530127529128528128529128530129531)
 (.leaf 126599127597127598128598127599000000128163127163127162127161128161128161129162130163127359000000127359127358128358128358128358128359127382127383126381126381127380128380128381128381128418126417126416128416128416128415129417129418128435128436127436127433128433000000129434128436127447127448127447128445128446128445128446129448127514128513127513127512128512128512128512128513129551127551128551127551129550130549130550129553129557128557128556128555129554129554130557130558000000128154128153127151129152129151130151129153128332127332128330000000000000000000129331130331128391127391127389127389129389129388129389130389128410127409127408127407129408130408129408129409000000129483129483129482000000000000000000000000129503128503129503128503130502131502130502130503128518128519127518127517129517129516129517129518130346130347130346130345131345132344132345132347130527128527129526129525130523130525130526130526130542130543130542130541131542132541132541131542130570130569129569130566131567131568130568131570132579131579131578130578132577132578132579133580000000000000000000132163132164133164000000000000133351131350132350132349133349134349134351134351132364132365131363130362132362134362133363133364133378132379132377131377132377132377134378134378132396131396131395131394132394133394132394132396131397130397130396131396132396132396132396132397132404130403130403131402132402132401133403133404132468000000000000000000131467134467132467132469133553131553131552132552133552134552132553134554133419132417133417131417134417134417134418133419)))
 (.node 2 (.node 1 (.leaf 133455131454131454132453133453134453135453134455133518131519131519132518133516134516133517133519134567131567132566133564133565135565134566135566134576132576132575133574133574134574135574134576000000000000133593133593000000000000000000000000134339133339132337132336134337134336135338135339000000134351134351134349134350135350134351134351133405132405132404133404134404134404134404134405134405133405132405132404133404134404134405134406134418133418134417133416133416135416134416134417135536134536134535133535134535136534136536136536135549134549134549134547134548135548134548135550133588133587134587133585000000000000000000000000136150135149135148000000000000000000000000136149135365135365135364135364135363136363136364135366000000000000000000134431134431135429136432135431135459133458134458134457135457135457136458136459136567135566134566135565136564137564135565135566135163135164136162136162136162137162136162136162136340134340134340134340135339136340136340136341136362135362135361135360135361000000137361137362137383136383136383136382136382137382137383138383135417134417134416135416135415136416136416136417136426134426134426135426136426137426136426137426137447135448136446136446136446137446137447138448000000136471136471136469136470136470136471136471137527136527136526136525136526136525138526138527136531135529136529135527136527138528137530138530137554135553136553136552136551136552137552138554137330137331137330137329138328139328138329139332137510135511135510137508137508137509137510137511137348137348000000137348138348139348138348138349)
 (.leaf 138374137374138374138373138372140372139373140374138448138448137447137446138446138445138447138448139546138546138545000000000000000000000000000000139155139156139155138153138153141154140154000000140372138372139372139370140371141371141372141373139460139460137458137458138457139458140459139459139519139519139519138517140518140519141519141520140352140352139351138349140350140350140350141352141356140357140356140356140356142354142356142356140387139387140385140383140385141385142385141387140401140401140401140401140401141399142401141401139462138462139462139461139460140461140461141463000000000000139572140571140571142570000000000000141330140330141329141328142329142328142329142330142371141371141370141369142369143369143370143371142388140388141388141387142388142388143388142388142411140411141411141411142411143411143411143412140464139465140464139462141463141462141464142465142515140515141514141513141513143513142514142515142554141555141554140552142553143553143555143555142332142332141331141330142330142330143331144332143370142370142369142368143368000000000000000000141468140469141468140466141467142467142467142468144160142161142158143158143157143158143159143159143361142361143361143360144360145360144360144361144383143383143382142382143382144382145382145383142459141459141458141457143458143457143458143459143515142517142516142515144515143514144516143516143553143555143553142553143553145552145553145554143178143177142177142176143175145175144177144177144372143372143371000000145370145370144372145372145394144394144393144392145393145393146394146395))
 (.node 1 (.leaf 145396144397144395144394145394146395146396146396145398144397144397144397145396146396145396145397144423143423143422143421143421144423144423144424143454142455143454143453144453144453144453144454144174143174144174143172145173145172145173146173145368145368145368000000146367147366147368147368145398145398145398145397145396146396146397146398144434143435143435145433144434145433145434145434146513145514145512145512145512147512145512146514146559145559145558145557145558145556147559147560146341146342146341146341147340000000147340146342146398145398145397145396146396147396147397147398145415145416144414144414145413146414146414148416146560145560146560146559147560148560148560148560146420145420146420146419146419147419147419148419147514146514145512147512147512147512148513148514148560146560147561147560148560149560149560148560000000000000000000000000000000148191000000000000149329147329147328147327147328149327148329149329149366148365148364148362149362150363150364149366148382148381148381147380148380148380149381148382147409146410146408146408148408149406148409148409147419146419147418148417148417149417148417149417148455146455148453148452148453149453148454148454148515147515147514147513148513148513148513148514149570147570147567148568149567149568149569149570149397147397147397147397148396149395150396150397149433147434148432147432148432149431150432149434149570149570149569149567149568149567149568149569000000000000000000000000150193152193000000000000150370150370150370150368150368152368151369152371149395148396149395148392150394150394150394150394)
 (.leaf 150397149397148396148396149395150395150397151397150564149564150562150560151561152561151561151562151335150335149334150333152333152333151335152335150397150396149395149395150394152394152395151396151520150520150519151518151518151518152519152520152340152341152340152339152338153338152339152340152373151373152372152371152371152372152372152373152386151386151385151384152384152384153385152386152436150436150436151434151435153434153437152437153332153333152331153330153330155330154331153332154364153364152363152362153362154362153363154364153398152398152397151396153396153397154397153398152425152424151424152424153424153424154425153425153340152339153338152338153338154338154339154339155405154405154404154402154402156402155403155404154568154568154568154567154568154568155569156569156354155354155354155354155354157354157354157355155381154381154380154379155379156379156380155380154383154383154382154381155381155380155382155382154394154393000000153392154392155392155393155393156330155330156329155328156328000000158330157330155343154344154342154340155341156342156342156343155344155345154344154342155343156342156343156345156346154347154346154346155345156345156346157346157359154359155357156358157358158358158358158359156517155517156515155515156515157515158516158516158417156416157416157415158415159415159416159417157436157437157436157435157436159434159436158436000000000000000000157192158192158192159193000000158385157385158383158383158383159383160383159383159404158404158403159403159402160402160403159404160413159413158412158411159411159410159411160413)))))
 (.node 8 (.node 4 (.node 2 (.node 1 (.leaf 158462159462000000000000000000160373159373160373159371160371162372161372162373159441158440159441159438160438161440160440160441162360160360161360161359162359163359163360163361161386161387161385161385161384161385162387161387162354161354162352161352163352164352164352164353162395160394160393160392162393162393162393162394162416161416162414161414161414162413163415162415162453161453161452162450162451164451163452163453162457162456162455162454162455164454162455162457163206000000000000163203163203000000164205165205164222163222163221164220164220165220165221165222163418162418162416162415163416164416164416164418163419162419162418162418163418164418164419164419166349164348165348165347166348167346166349167349166365164364165364165364166364167363167364167365165398163398163396163395164395165396165396165396166445165444165444165444165444166444167444167445166223165223165222165221166221167221167222167223165234164234165234164231165232166233166233166234166241164241165240166238166239166238168240167241167346166346166345166344167345168345167346168346166350166351166350166349167349168350168350168351165421164421164421164419165419166419166420166420166426164426164426164425166426166425166426167426166433166434165434166432167432167431166433166434167448166449166448165448167447168447168449168449166455166454166453166453167453167453168453168454167230166232165229165229167228167228167230167231166235166236165234166234166233168232167234167234000000166338167338000000000000000000000000000000000000167364167363167362000000000000000000000000)
 (.leaf 167404166404167404166404167402168402169403168406168210168208167208168206169206170206169208170210169220167220168219168218169218169218170219170220170346169347169345169345170344171344171345000000170377167377169376169376170375000000000000000000170408168408169408168406170407170406170407170408170443169442168442168441169441170441171441170443170444168445169443169442170443170443171443171444170454169454169453169452170453170453171454171454171210169210168210168210170210171210170210171210170224169224169223169222169222170222172223171224169252168252168251168250170251171251170251170252170385170386170385170384171383172384172385171387170408170408169407170407170406171406171407171408171441168441169441169440170440172440171441172442171226171227171225170224170224171224172225172226170243169243169242170242170242172242171242171242170245169245169245169243170243171242171244171245000000000000000000000000170255172256171256000000172394172394172392172391173392174392174392173394173397172397171397171396172396174395174395174396172415172415172414172414172413173413173414172415173228173229173227172226172226175227174227173229173238173238173237173236173236174236174237175238173380173380172379000000000000000000174379175380173412172412172411172410173410174410173411173412174218173218173217172215174216175216175217175218174222173222172220172220173219174220175221175222175388173389174387173385174387176386176387175389174406173408173407173406175405175404175405175406000000000000173595173594174594175594175595000000175225175225173225175225174224177224177225177226))
 (.node 1 (.leaf 175379174379000000000000000000000000000000176379175400175401175400175399176399176398176399176400176443175442175441174441176439177440177441177442175584000000000000000000175582175583175584175584177220176220175219176218178218179217177218178220000000000000000000175258177259178259000000000000177401177401176400176399177399177399178400178401177413176413176412176411177411178411178412177414177416177416176415176414176414178414177416177417177426177427176425176424176424177425177425177427178439177439177437176437177437177437177438178439177420177421177418177417178417178418178419180420178442178442177441178440179439179440179441179442000000000000000000000000000000178566179567000000180219177218179217179217179217181216181218180219180254179255179253178251180252181253180254181254178385178385179385179384180384180383180384180387179581178583178582179581180580180579180580179582180213179213180211180211181211181211182212182213180247179247180247180246181246182246182247181247180441179441179440179439180439181439182439181441000000000000179567178566180566181566000000000000180593180593180591179591181590182589180592180592181211181211180210181209181209183209183209183210182213180213180212181211181211183210183212183213181237181238181237181236182236183236183237182239181255181254180254181253181253183252182254183254181381180381180380181380181379183380181381181381182393181394181394181393181393183393183393182393181402180402180401180400180400182400181401181403181404179404179403180402181402181403181403181405183248182247182246181246182246184246184246183248)
 (.leaf 182413182414182412181411182411183411182413183413182423181423181422181421182421184420182421182422000000000000000000000000181566182567184567183569183245182245183244183242183243184243184244184245183253183252183251183250184250184251183252183252183260183259181258181257183258183257183258183259182268000000000000181266183265183266183267184269182413182412182411181411182411183411183412184412182426181426181426182425183425183425183425184425184590182589183589183588184588185588185589185589184244184243183243184241184242186242186243185244184396183396184396183396185395185394185395185396185380185381185379000000000000000000000000000000185636183637184635183635186636186636185636185636187209186208186208186207187206188206188206188209186266185266184264184263186264187262186264186266186413185413184412185411185412186411188413186414186439185439185438186437186437187437187438188439186571184570184569184569186569187569186569188571187270186270185268185268187268187267187268187269187384187384187384186382188382000000188383187384186405186404187404187403186402188402188403188404186420186420187418185416186416188416189418189418189206188205188204188203189203189204189205189206188213187213187212188211189211189211189212188213188218187218187217186215188216188216188217188218188235187235187234187233188233188233188233189235187270186270187270186269187268189269188269188270187395187395186394186394187394188394188395188396188646188645188644188643188644188643188644188644188225187224187224187222189223189222189223189225189273189272188272188272189271191272190272190274)))
 (.node 2 (.node 1 (.leaf 190285188284189284188283190283190283190283190285190438189438190436189436190436192436191437000000190242189243189241190241190240191240191241191242191248190250190247189247190247191247191248192248190251189251190251190250191248192248191250191251191288000000000000189285190285191286192285192288191422190422190421190420191420193421191422191422191636191636000000000000000000000000000000192636191230191231190230191229192229193229192230192231191395190395190394190393191393192393192394192395191400191400190397190397191397192397192398192399000000000000191437192436192436193436193437192437193410191411192411191410193408193408194411193411193420193421193420191419192419193419193420194420194645193646193644192642194643195642195644195646193217193217192216192214194215194215194215194216194252192254192251192251193251194250194252194252193271193272192271193270194270194270194270194271000000000000000000000000194290195290000000000000194385194386000000000000000000000000000000000000193400192401192399192398193398194398194399194400193408193408192407192407194408194407194408195410194432194431194431193430193429195430194430194430195640194639193638193637000000196638195638196639195206194206193203194202195202197203195204196204195274193275193274193273194273195273195274196274194401193401193400193399194399195399195400195401194402193402193401193400194400195400195401195402194403193402193402193401194401195401195402195403196425194424194423195423195424197424196425000000196206194206194206195206196204196205197207196207195230194230194230194229196229196228196228196229)
 (.leaf 195437195437195436195435196435196435196435196436196221196221195219195218197219197218198220197221198222196223195222196221196221197221198222198223196242195242196240195239196240197241197241197243196274195273195272196272197272197271197272198274197395195396195394195394196395198395197395197395196406195406195405195404196404197404197405197406196414195413195413196413196413197412197413199414198238196239196238197238197237198237198238199238197412196413196411197411198411198410198411199413198226197225198225197224198224200224199224199226199237198237198236198236200236201236200236201236201228200228199227199226200226201226201227201227200394200394200393200392200392201393201394201395201422201423201422201422202421203420202421202422201242200243200243200241201241202241202242202243201244201243200243200243201242202242202243202243201274201274202273202271202272202272202272202273201404200404201404200402202403203403203404204405203216202214202213201213202213204214203214204214203245202245202244201244202243203243203245204245202250202248201248201248203248203248203248204248203424203425203425202422204423205424205424204424203431203430203429203429204428205429205429203430202435202436202435203433203434203434204435204436000000000000000000202440203440203440000000000000203211202211204210202209205210204209205211204210203229202229202228202227203227205228204228204229204405203405204405204405204405206405206405205405205214204214204211203211204210205211206213205212204222204223205221204221205221205221205221205222204255203255203254203252204253205253205254205255))
 (.node 1 (.leaf 205282205281205280205279205280206280206281206282204435204436204435203434205434205433205435206436205264204263204263204262205262206263206263207263206264205264204263204263205263206263207263206265205273204273205273205272206272206271207273206273207404205404206402205402206402207402207403208403206233205234206232205232206231207232207233208233207238207238205237206236206237207236208237207239207408206408207408207407208407208406209407207409207226206225207225207224209224210224208224208226000000000000207282207281208281209281000000000000208414208414208414208412209412209412208414208415208439207439207438208436208437208437208438209439208622207622207621206620207621209620209623208623208256207256208256207254209255209255209256209257000000209630209629209628209629209629210630209631209257208258208256209256209256211256210256210256211395210395210394210393210394212393212394212395211282210282209281211280212280212280211281212282211383000000000000000000000000000000000000211384212391211390211390211390212389213389213390213391211400210400211398211397212397213398213398212400211405210405210404211403211403213403212404213404211622209623210623210620210620212622211622213623213222210222212221211221212221212220213222214222212280212280210278212278212278212277212278214280211454210454210453000000211451212452212453212453212619210618210616210616211617213617212617212617212645211645211644210643212643212643213644213645214245213246213245213244213245215244215244215245214247212247213247213246214245215245214246214247214247214247214246214245215245215245214246214248)
 (.leaf 213419212420213417212417213417214416214418214418213644213644212643213642213643215642215643214644215642213643214641000000000000215641215642216642216247214248214246215245217245218245217246217247216262216263216262216260217261217260217261216262215269214270214270214268215268216269216269217269217392216392216391215391216391217391217392000000216392216392216392216391217391217392000000217392216610216611214609216608216608216609216610216610215640000000000000215639215638216639216639216639217233216233215232217231217231219230218232217233216237215237215236215234216235218235217235218237219280217280217279217278218278218278218278000000218616217616218616218615219615219614219615218617217629217629217626216626218625218626218627218629000000219243218243218242219242220242220243221243218398217399217396217396219397219396219397220399219407219406218406219405220404221404221405220407000000000000219429218429219429220429000000000000219449218449218448000000000000000000220448220449219609217610218608218607219607220607219609219610221243000000219243219242220242221242221243221244219404218403219403219402220402220402221403221404220620218621219621219618220620220619221619221620219625218625218625218623219624221622220624221624220644219644218643218642219642220642220644220644219654219655218654220653220653221653221654220654222231220232221231221229222229221230223230222232222232220233220232221231222231223230222232222233221242220242220241220240221240222240222241222242220263220263220262220261221261221261221263221263221266220268220265220264221264222264221266222268))))
 (.node 4 (.node 2 (.node 1 (.leaf 221386220386000000000000000000000000000000000000221405221404219404220403221403221403221403222405221426220426221424220424222423222424222425223426221600219601219600220598220598221599221599221601222242221242221241221240222240223240223241223242223389221389222389222387222387223387224388223389222609220609222609220607223607223607222609224610222653220654221654221653221652223653222653222653223219000000000000000000000000000000000000223220223242222242222241222240223240225240224241224242224255223255222255223254223254225253225253224254223262221263221261222260222260223261223262223262223449223450221449221447223447223448223448223450224634222635222634221632223633224633224634224635225253223254224252223252223251226252226252225252223274223275224273223273224273000000000000000000224405223405224404223403224403224403224404224404224596222596222596223594223595225594226596225598226244225244224244224243225243226243226244227245225258224258223257225257225256225257225258225258225388224388000000000000000000000000000000000000226427225428225427225426225427227427227427226427225622225623223622224620225620227620225622225623226244225244225243225242226242227242227243227244226254225254225253225252226252228253226255226255226592225592225591224590225591228591227591226593227644226643226643225643227642228642227642227643226659226659225658224657226657226656226657226659228233227233226232226231227231227230228232228233226408225408225407225406227407227406227407227409226414226415227414226413227413227413227413228413227447227448000000000000000000000000000000228449)
 (.leaf 227647227647227647227646228646229646228646229647229240228240227239227238228238230238229239230240229399228399228398228398229398230397230398229400228422227422227421226419228420228419228420228421228606226605226605226604228604228604228604228606227615227614227613226612228612228613228614228614228618228619226617226617000000228617228618228619230398229399229398229397229395231395230398231399230635229635228635229634230634231634231634231635230636229636229635228635230635231634231635231636231232228232228230229230230230231230232231232232230239229239230238230237230237231237232238231239230405230406230405230404231404232404232405231405000000229427230425230425230425232424000000000000230593230593229592229591230591231591231592232593231629230628230628229627230627230626230628231629231637230637230636230635231635232635232636232637230646230646230645229646231645231644231645232646231255231255229254231254231253231253232254231255231395231395231395230395231395233394233395232395232634231634231634231633232633233632233633233634000000000000000000232424232425232425000000000000232593232593231592231591232591234591233592233593233635232635232634232633233633234633234634234635234240233240233239233238233238235237234239235240233415233415233415233414233413233413234414233416234612233612233612233610233611234611235612235612235242234242234241234240235240236239236240236241234254233254234253234253234252234253234254235254234402233402233401234400234400236400236401234402234632233632234631233630234630235630235631236632234659234659234659234658234657236657235658235659))
 (.node 1 (.leaf 235620234618235618235617235618237617237618236620236649235650235648235647236646236646237648237649236652235652235651235650236650237649237651237652236657235657235656235654236654236654237656236656237233236233236231235231237231238231238231237233237606236605236604236603236604238603238605237606237617235618236616236615236616238614238615238617237624236624236623236622236623237623238623238624237594237595236593237593237592238592238593239595238603236604237602237601237602238602239603238604237626237627236627236624237626239626239626239627236635236635236634000000236634238635237635238635237658237658236657236656238657239657238657238658000000238228238226238225239225239226000000000000239610238610238609237609237608240608240609240610238620238621238620237618239620240620240621240621239648238648238648238647238646239648240648240648240257239257239256238256239256239256239256241257238402238401237401237401238400240401239401239402240606239606239605238604239604241604241604240606239640239641238639000000239640239640240639240640239229239230239229000000239227241228240228240229241413239413240413239411241411241411241412241413240656239656240655240654240654240655240656240656242224241224241222240222240221242222243223000000000000241235241235241234241234241233241234241235241413241413240412241411241411241412241414241414241655240656240655240654241653242654242655242656244225243224000000243223243223244223244224244225243595243595242596242593243593243593244594243595000000243617243616242616244615000000000000000000243628243629243628243627244627000000244627244628)
 (.leaf 244635243635243635243633243634243633245635245635000000244255244255243254244254245254244254000000244647243647243646244645244645245645246646246648245238244238244237245236245236245236245236246238246243245242245241245240246240247241246240246243245247245248245246244245246245246245246246246247000000000000246414246413246414000000000000000000246653246653246653246652246651248651248653246654000000247412247411246410247410000000000000000000247591246591000000000000000000000000000000249592248646246646247646246644248645249645248645249646250233249233249232248232249232250232250233250234250226249226250224249224250224251224251225252226251241248242250240250239250240251240251241251242249643248644248643248642249642250642250643250644250648248648249647249646249646250647250647251648249657249656250656250655250654252654250656252658251242251241250241250240251240251240252241252242251650250650250649250648251648251648252649251650252236251236251235251234252234252234252235000000254224254224253223254221254222255222000000255224000000000000000000000000000000000000254710254711257224256224255222255222257222258222257223258224260219259221259220260218261218261219260219261221265228264228000000265226265226265225265226266228267225266225266224266223267223000000268224000000270223270224271222271221271222000000000000272224273220272220273219273217273218274218274219273219279221277221278219277219000000279219279220279221000000000000277225277224278224279224000000000000280220279220279219279218280218281218282219282219000000000000000000282221283221283221000000000000)))
 (.node 2 (.node 1 (.leaf 84185083184083183083182084183084183084184084185085180085180085179085178085178086178085179085179088188088188089186089186089186090186089187090186093186092186091186091186092186093186093186094186013298000000000000000000013296015296015297014298015294013294013293013292014292015292015293015294016220016219015219016217016218017218017219017220017189016189015188016187000000000000018188018189017219016219016218016217017217018217018218019219016255000000016253000000017252017253017254017255016256000000000000016253017253017254017255017256016257000000000000000000016255017255017256017257016258000000000000000000016256017256017257017258016259000000000000000000016257017257017258017259016260000000000000000000016258017258017259017260016291016292015290016290016290017290017290017291017307000000016306015304017305018305018306018307018236000000000000000000018234019232019235018234017261016261016260016259017259018259018260018261017262016262016261016260017260018260018261018262017263016263016262016261017261018261018262018263019248017249017248019246019246019246019247019249018263017263017263017262018262019262019263019263018266017266017265017263018263019263019265019266018267017267017266017265018265019265019266019267018311018311019309019308019309019308020310020311000000000000018319000000019318020318020319000000019268018268018267018266019266020266020267020268019269018269018268018267019267020267020268020269019271018271018270018269019269020269020270020271019292018292018291018290019290020291020291021293020272019272019271019270020270021270021271021272)
 (.leaf 22306021306021305021304022304023304022305022305022273021273021272021271022271023271023272023273022274021274021273021272022272023272023273023274022275021275021274021273022273023273023274023275022300021301022300021298023299023298023299023300024231024231024231024229024229024230024230024231023270022270022269022268023268024268024269024270023298023299022297022297023296024296024297024298024276023276023275023274024274025274025275025276024277023277023276023275024275025275025276025277024314024314024313024312025312026312026313026314025278024278024277024276025276026276026277026278025279024279024278024277025277026277026278026279025280024280024279024278025278026278026279026280025281024281024280024279025279026279026280026281025281024281024281024280025280026280026281026281025284024284024284024282025282026282026284026284025290024290024290024288025288026288026290026290025295024294025294024292025292026291026293026295025296024296024294024294025295026295026295026296026312026313026312026311027311027310027311028313027566025568026565026564027564028566027567028566030253030253030252030251030251032251032252032253030259029259030259030257031257032257031258032260030552029554029553029552030552031552031553032554030572029572030573029572030570031572032572031572031268030268030267030266031266032266032267032268032251032251031250031249032249033249034251033251032265031265031264031263032263033263033264033265032303032303032301032301032301032300032301032302032569031567031566030565032567032566032568032568033111000000000000000000000000000000000000034111))
 (.node 1 (.leaf 33264032264032263032262033262033263035264035264033549032547032546033546033547033547034546034547033552032554032553032552032551034550035552034552033591000000000000000000033589034591033591034591000000000000000000000000033129034130034130034132034533033531032532034530034529035531034531035531034563034561032562033561034561035561035562034562035110000000000000000000000000000000000000000000000000035144000000000000000000037144036144037144036292035292036290036290036290036290036291036292036526036527035525035524000000000000000000037526036535035533035532035531036531036533037534037535036578034577035577034576036576037576037577037578036582034584035581035580035581037582037583036583036590035590035589035588036588037588037589036590036605034603034603035601036603036603036603037605000000000000000000000000036658036657036659037660037132035134036133036130037130000000000000000000037200035202035199036198038199038200039201039201038270037269037269037268038268039267039269039270037547037548037548037545037545038547038548038549037556036554037554037553037552038554038555038556000000000000000000000000038047038045038048038048038258037258037257000000000000000000000000039258038571036572037570037569038569039569038570039571037639036639000000037636038638038637038638038638037648036648036647036646038646039646039647039648038651036650036650036649038649038648038649038650000000000000038302038301039301041300039301040303039494038494000000000000000000000000000000000000039523039522039521039520039521040519040522039522039562037563038561037560039562040562039562040562)
 (.leaf 40205039204000000000000000000000000000000041271040271040271040269041270041269042270042271039416039416039415000000040414041414042413042415040552039550039549038548040550040548041551040551040582040582039581039580040580042579042580041582039654038655039654039653040653042653041654040654040678038678038676038676040676041676041677041678041113000000000000000000000000042111042112041114000000039146041146041146000000000000000000000000042273041273041272041271042271042271042272042273042274041274041273041272042272042272042273042274042275041275041274041273042273042273042274042275042276041276041275041274042274042274042275042276042278041277041276041275042275042275042276043277041292041291041291041289041290041289041291041291041419040419040418040417042415041417042418042419040607040607040606041604041605042605041605042607041626040624039625040624040624041624042625042626041667041666041665041664041665042663043665042667041709000000000000000000041707042707041709041709042048042048041047041046042046043044042047042047042258000000000000000000000000000000043257044259043279042278042278042276042276044276044278044279043283041285042283042281043282044282044283044284042425041425040424040423042423042422042423043425042499041499041498042498000000043497043498043499042518040518042518041516041516044516043517043518042539041539041538041537041537043537043538043539042609041609040609041609042607043607043608043609042646041646042645041642042644043644043645042646042707041707040706041707042705043705044707042707000000000000000000000000000000044004043004044006))))))
 (.node 16 (.node 8 (.node 4 (.node 2 (.node 1 (.leaf 43042042044042043042042043040043040043042043042043108042108041107041107043106043107044107044108043112042112042111042110042112044110044111043113000000000000000000000000000000044151043151043152043269042269042268042267043267044267043268043270043537041537042538042535043535044535044536044537044558043557043555043555043556044556044557044558043607042607041605042605043605044605044606043606044632042631043631042631043629043629044630044631043665042663041663041663043663045662043664043664044083042084043082043081044081045083046084044083000000000000043129042127044128045128044129045128044164000000000000000000000000044163045165044165044264043264043263042262044262045262045263045264045281044281044280044279045279046279046279046281045405044405043404043403044403045403045404046405044535043535043534043533044535045533045534045535045550044551043548043547044549045549046549044549044579043579043578043577044577045577045578045579044609043609043608043607044607045607045608045609043623043623042622043621044621045621044621045623044634043634042633042633044632045632044634045634044643044642044642043641044641045641044641045641043696042696043696043693044693045695044695045695045044044044044043043042045042046042045044045044045171044173043171043170045169045171045171046173045263044263044262044261045261046261046262045263045401044401044400044399045399046399046400047401045406045405045405044404045404046404047405047405045441000000044440043439045439046439045440046441044568043569044568044565045565046567045567046567045580043579044579044578045578047577046579045579)
 (.leaf 44596044596045595043594045594046594046595047596045609044609044608044607045607046607046608046609045626044626043625044624045624045624045625046624044628044628044627044626045626046624046627046628045665043664043664045662045663045663046664046665045670044672044671044670045670046670045670046670046054045056045053046052046054047052047053046055046093045093045092044092046093046091046093046093000000000000000000045142046142046142046142047142046219046220045218046218046217046218046218046219047414046414045415045414047412047412047413046415047485046485046485045483046483047483047484048487047660045660045659045658046658046658047659047660046690044691045689046688046688046690047691046690047707045707046707045707047706048706047706047707047068046068046067046066047066047067048069047069047115045113047113047112047113048111048112049114047121046121046120046119047119048119048120048121047474045475046473047474047472047473048473048474047495046497046496046495046493047493048494048497048532046532047529046528047530048530048531048532047540046542045539047539047538048538048539048540047591046591046590047588047589048589048590049591047598046598046597047596047596048596049597048598047633046633045631045630047631048631048632047633047648045650046647046646047646047647047649047649048088047086046086047084048086049086048087049088047218046218047218047217048217048217049216050217000000000000000000000000000000048224049225000000048402047402047401048400048400049400049401049402048426047426047425046424048424050423049425049426048450046451048449046449048448048449048449048450))
 (.node 1 (.leaf 49555047555047554048552048553050552049554050555049561046561048560048559048560049560049561049562049575048575047575047572048574049574049575049576048684046686046684047682048682049682049683048685048697047699047698048697048697049697050697049697048119048118048117048116049116049118050117050118049133048133049133048131049131050133051133051133049278049277048277049276049276050276051276000000049411049411048410000000000000000000050410050411048464047465048464049462049463050463049463049464049506048506047505048504048505049506049506049507049561048561048560049559049559050559050560051560050583048583049581048581050580051579051580050583050608048608048607048606049606050606051607050608049611048611048610048609050609050609050610050611049712049710048711049709050708050710050711050712049713049714048714049712049713000000000000000000050124049124048124049124049122050124051125050125050143048142050142050140050141051141051142051143051172049171049170050170050171051171052172052173050398049398050397049396050396051396052397051398050400049400050399049398050398051398052399052399050401049401049400050399051399052399052399051401050428049428049427049426050426052426051427051428050467049467049466049465050467051467050466050467049516049516049515049514050514050514051513050514050549050547049548049545050547051545051546051547050554049554050552050552050552051550051551051554050565049565050564049563050563051563051564051565050645049645049644049643050643051643051644051645050649049649049646049645049646051645051646050647049662048662049662049661050661050661051662050662)
 (.leaf 50671049671049670050669050669051669051670050672051107050105049104050105051105051103052106052107051144050144050143050142051142051142053142051143051264051265050263050262051262053263051263051264051396050396051395051393051394053394052393053396051413050413050412050411051411052413052414053414000000000000000000050429051429051428052428051430051631050631051631051631052631053629052632053633050682050681049681050681051681052681051681051681052128052128052127052126053126053128054127053128052449051449051448050447051448052449053448052450053458052458050456051457052455053455052457053457052495051495050495051495052493052494052494053495052526052526051525051524052524052525052526052527052540052541051539052539053538053538053539053540052643051645051644051643053643053643052644053643052694052693052692051690052692053690054692054694053042053043052041053040053040055040053042053043053072052074052071052070052072054070054071053073053092052092052091052090054090054090054091054092053128053126053126051125053126054126054127054128054393053393052392053391053391054391055392055392053484052484052483051481053482055481054483053482053595052595052594052593053593054591054594053595053709052709052708052707053707054707054708054709054049053049053048054048055047055047056048054050054060053060054059054059055059056059055059055060053080053080052080053080053079054079054080054080054115052115053114053113054113055113055114055115053150053150052151053150054150055150054150055152054419053419054420053419055418055419056419055421054439053441053440052437053438055439054439055439)))
 (.node 2 (.node 1 (.leaf 54473052474052473052473053471054472054473054473054560053560052560053558053559056558056560055562055093054093054092054091054091056091056094055094055138054138054137055136055136056136057138057139000000054175054174055173055173000000000000000000055394054394055392055392056392056392057392056394055445054445053444053444055445056445055445055445055633054633054632054631055631056631056632056633056657054655055655055655055655055654057656055656057071055070055069056069056070057070058070057070056109055109056108054106056107057107056108056109056142055142055141055140056140057140056141057142057392055393056392054391056391057391057392057393057431056431056430056429056429057429058428057429056467056469055468055465056465057467057468056467056510056511055511056508057508057508057509057510056579055581055580055579056579056578056579056579057613055613056611055611056611056611057612057613056690055690000000000000055689057690056691056692057093056091056090056089056090058089057091057091056153055154056153055151057152058152057152059153056158055158055157056157056157058157057157058159058170057170056169056168057168058168058169059170000000000000056172056171057171058171000000000000057403056403056402000000000000000000058402059403058413057411057411057411057411059410059411059412057523057523057522056521057521058523057522058523057562056562057562056560056561059561058561059563058168057168057167057166058166059166059167059168059209057208058208057206059206059206059207059208059383058384058383058381058382060382060382059382058454057454057453057452058452058452059453059454)
 (.leaf 57589057589057588058587058587059587059588058589059617056618057617057616058616060616060617060618059139059140058138059138059137060137061140059140059160058162058161058160058159060160059160060160059393058393059391059391060391061390060392061393059470059470059468059467059468060468060469060470059493059492059491058489059491060491060492060493058507057506057505057505059504059504059506060506059525059526059525058523059525060523061525061525059539058539058538058537059537060537060538059538059564058564058563059563059562060562059564059564060593059593058592058591059591060589060590059592059633058633058632058631059631060631059632061634059639058641059639058639059637060639061639061640060046060047059045060045061045061044062045061046060105060104060103060103060103061101061104060105060117058117058117059115060115061115062118060117060205059205059204000000000000000000061204061205060218059218060217059216060216061216060216061218060486060486060485059482060484061484060484061486060613060613058612059611060611061611062612062612000000060658060658059657060657000000000000000000061048060048061048060046061046062046062047062048061083061084060084061082000000000000000000000000061114060114059113059113061112062114061114061114061147060147061147061146061145062145062148061148062386061387061386061385062385063384062385062386060443060444059442061441061442061440062443063442061502059502060501060500060501062500061502062504061516060516059514059512061514061513061514062516060576059576060576061575061575063575062576061576061124061125061124062123062123064123062123063125))
 (.node 1 (.leaf 63157061157061156060155062155063153064155064155062166062166062165061164062164062163063165063166062205061205061204000000000000000000000000063205062424061424061423060424061423063422062424063424062436062435061435061434062434064432063435063436063437061435062435061435063435063435063436063437062537061539061538062535062535062536062536063537061610061611060610061609062609062608063608063609062634061634061633061632062632063632063633064634063099061100061100063098064097064097063098063100062136061136062136062135063135064133065135063136063217062217063216062215063215063214063216064217063415061416061416062415062414064415063415064415063448063449062449063447064447065446064447065450063461063462062460062459062460065459065461065462063475062475062474062473063473064473065474065476063487062487063485063485063485064485064486064487063596061598062597062596063596064596063596064596063614062616062615062614063614064614063614064614064224000000000000000000063224064223064224064225064451064451064451063451065450066450066450065451065489063489064488063487064487066487066488065489065229064229064228063228064227066227065228065229064499064498063497064498065498065498065498066500064554063554064553064552065552065553065554065554065566065568065565063565064565066566066567065567065623064625064622063622065621065622065622065623066131066131065130065129067131067131067132066132066432065432066430066430066430066430067431066432065492065492065491065490066490067490067491066492065576064576064575065575065574067575066575067575065603066604065602064603065602067603066602066603)
 (.leaf 66620064620065619065618066618066617067619067620067114066114066113067111067112068112067111068112067167066167066166065164067165068165067166067166067445067445067444067442067443068443068444068445067475066475067475066473068473068473068474067475067490066490066489066488067488068488067489068490068512067511066510066509066509069509068510068511067548066550066547066546066547067546067548068548067682067681066681066680067680067679068679068682067166067166067165067164067164068164069165069166068209067209067208067207068207069207069208069209067489067489067488067487067487068487069488069489068516067516067515067514068514070515069515070517068544066543067541066541068540069542068542069544068559067559067558066558068559068559069558069561068579066580068579067577069578070578069578069579069104068104069104069104070103071102071103069105069173068173068172068171068171069171069172070171069175067174067174068173069173070171069174069174069212068212068211068210069210070210070211069212000000000000000000000000000000069239069240069241069408067408069407067408070407069406070407069408069419067420068418068417069417069418069418069420069527068527067527068527069525069525070526070527069564067563069562069562069562069561070563070564068571067571068571068568070569069570069570070570070590068591068590069588069589070589070590069591068602068603068602069600069601070601070602069601070102070100000000000000000000000000000000071100069181069181069180069177070179071179071180071181070220069222068221069220070220071220070220071220070421069421069420069419069420072420072421072421))))
 (.node 4 (.node 2 (.node 1 (.leaf 70436069436069435070434070434070434071435071436070516070517069515070515070514072514071515071516070534068535069535069532070532071534070534071534070616070617070616069614071615072614070616070616000000000000070629069629070629070629070629070631071114069113071113071111071112071112072113072114071114069114070113069113071114072114073114071114070131069131071130069129071129071128072130071131071142070142070141070140071140072140073141073141071444071444071444069443070443071443071443071445070453069452070453070452071452071451072451072452071487071486069485070485071485071485072486072487072614071615070614071613072612072613073613073613072213071213072213071211072211073211073212073213073232071230072230072230072230072230072231073232072514072514071513071512072512000000073513073514072528071528070527072527072526073526073527073528072546071546072546072544072544073544072545073546072589071589071588071587071587072587072587072588074133071134072133072132073132075132074133074134074141073141072140072139073139074139073139000000072178072178072175071175073176074176073176074176073195072195072194072193073193074193074194074195073377072377000000000000072376073376073377073377073408072408072407071408072407074406074407075410073461072461073460073460073459074459074460073461073471071472072472071471073471075470075470073471073489072489071487072487073487073487073487074489073514072514072513072512000000074512000000074514072542071542073542072541073541073540074542073543073564072564072563072562073562074562074563074564074577073577072576073575073575074575074576075577)
 (.leaf 74157073157072156072154074155076154075156075157074165073165073164073163073163074164074164075165073185072185073185074183074184075184075185075186074384073384073383073382073382074383074384075384075420074420074420074418074419076419076419075421075422074422073421074421074422076421076421076423000000073507000000000000074507074506074508074508073527073526073525072524074526075526075527074527074550074551074550073550075549075548075549074550074622074623073621073620074620075620075621075622075168074168074167074166075166076166076167075169075186073185073185074184075184077184075185076186075210074210074209074208075208076208077210077211075393074393074392074391076391076391076392076393075405073405074404074403075403076403076404075406076438074437075437074437074436075436076438077438075527074527074526073525074525075525076524076525075534074534073534074532074533076534075534076534075594075593075592074592075592076592076593075594076613075612074612073610075611076611076612076613074634074632075633074632074632076632075632077633000000075136076134075134076134077134077135078136076392074393076391076390076390076390076392077392075415075415075414075413075413076413076413076414076425076426075424076423076423077423077424077425076455075455076454075453076453077453078454078455076576076576075575075574075575077574077575078577076588076587074586076584076586076585076587078587078124075123076122077123078121078121079122079124077182076182076181076180077180077179078181078182077200000000000000000000000000078200077200077200077211077212077211077210077209078209078210077212))
 (.node 1 (.leaf 77242076242077240077240077240079238079240000000076371075371076370076369077369078371077371077372077386076386076385076384076384077385077385078386078429076429077429077427077427079428079428079430078445077444077444077443078443079443078443079444077469076469076468076467077467077467078468078469077477076477077477076477077475078475078478077477077499076499076498076497077499079498078498079499077553075553077553077552077551077552077553077553077578075579076577076576078577078576078577079578078117077117078117077115079116080117079116079117078155077155077154078153078153079151080153079155078186077186077185077184078184080183080183079186077198077198077197077196077196078196078197078198078403077403076403077403078403078403078403078404078532076533076531076531078532079532079533078532077551076550076548076548078547079547079548078549077573077573078572077571078571080570079572078572078623078624077624078623079621080621078622079623080136078137078136079135080135080135080136080137079173078173079173078173079171081171079172080173078198077198077198078197078197079196079197079197080223079222079222079221080222080222081222081223079447078449078446078445080446080445081447081448079577078577078576078575080575080575080578079577080205078206079204078204080205080204080204081205080487080487079488080485081485081485081486082488080504080504079503079502079502080503080503081504081567079567080565080565080565081565081566081567079591000000079591079590080590081590081591080591081363079363079362000000081361081362081363081363081384080386081384079382081384081384082385082386)
 (.leaf 81562080562081561080560081560081560082561081561081586079586080585081584081584081583081585082586081598081598079598079598081596082598082599081599082142082141082141081140082140082140082140083142082173082173081172081171082171082172083172082174083217082216082215082215083216082215083217083218083415081415082413082412082413083413084414084414082438082438082436082435082436082435084436084437083461082461082460082460083459084459084460084461082467081467081466081465082465083465084467083467082487082488081486081485083486000000083486083487082501080502082501080500083500083499083500082501083543081544082542082542082542083542083543084544082567081567081566081565081564083565082565082566083609082609081610081609083608084608083608083609082631081631081628082628082629083629082630082631083128083129082127081126083126085126083127084128082158081158082158083157083157084157085157083158083388083387082387082386083386083385083385083388083403083403083403083402084402084401083403083404083421082421083421083421083421085421084422085423083485083484082484083483084482000000083484083485084128083128082127083126085126085126085127085128084201084202082201082200085201085201086201085201083366083365082365082364084363085363084365085365084375082375082375083375084375085375085376084376084489083489083488083487084487084487084488084489084533084533084533084532084531084532085534000000084137084138084137084136085136085136085136085137086215085215085214084214085214086214087214086216085442084442084441085440085440086440085442086442000000085462085461085460086460000000000000000000)))
 (.node 2 (.node 1 (.leaf 85466085466085465085465000000000000000000086466085470085471084469084468086468086468086469086470085551085551084550084549084549087550087550085552085570085571084569083568085568085569087570087571084582085581085581085580086579085580086581086582084595083595084595083594085594085593085594085595087418085418085417086416087415088414088416088417086516085518086516086514086514086515086516087516087607086607086607085606086606087606087607088607086166086166087164087163088163089163088163088164088172087171087171087170087171088171089172089173088226086224087224086224086223089222089225089226087394086394087393086392087392088392089392089393086403086403086402086401087401089401088402087403087469086469086468086467087467088467087468087469087495086495087494087494088494089494088494088495087537087538086536086535087535088535088536088537087145087145087144086143088143088142089144088144087149086150086149086149087148088149088149089151088369088370088369086367087368088368090369090369088533088533088533088532088531089531089532089533088619087619086619087619087618089619088619088619088627087627086625086624088625089625089626088626089128087129087128088126088127091127089128090130088144087145087144088143088142090143089143090143089382089381089381089379089380089380089380089382089395088395089393089392089393089393090392089395089417089416089415088415089415090415090416089416089440088442088439087438090438090438089439090440089451088451088450089449089449090449090450090451089468087468088467089466089466089467089468089469089498089499089498088496090497090496090497090498)
 (.leaf 90163089163090163090163090163091163092164092164090174090173089173089172089172090172090172090174091410090410090408090406091408092407092409092410090453090453089452089451090451091451091452091453090533089533089532089531089532090531090533090533090568090569090568089568000000090567091567091570089607089608088607089606090606092606092606092607091157090157090156090155091155091155092156092157091360090360090359089358090358092358091360091361091488090488090487090486091486091486091487091488091499090499090498090497090498091498091499091499092606090606090605090604091604092604092605092606093161092161092161091160092160093160094161093162092186091186090186090186091186092186092186093186092453091453091452091451092451093451093452092452092523090524092522092522092521093523093524092524092613090614091612090612091612092611093614092614092125092126091125092124092123000000093124094124093179093180092180092177094177095179095179095180093602092602091601092600093600093600094601093602094134094134094134094132094132094133096134096135093150093151093150092149094149095149095150095151094160093160092158093158094158095158096159095160094510092512093509093508093509095510095511094511095214094214095214094212096213097213097215097215095534094532095532094530095532097531096531096532095560000000095558095557095558096558000000096560096348095348096348095348097347097346097347096348096477095477095476095475096475097475097476096478097112097112096111000000000000000000097111097112097135096135097135097134000000097134097135097135097165097165096164097163097163098163097164098165))
 (.node 1 (.leaf 97176096176097175096174097174098174099174098176097361097360096360097359097359098359097360097360098412097412096413096412098410000000000000000000097452096452097451097450097450097449098451098452097509096511096508096507097507098507097509098511098595097595097594096594098594099593099593098596096613097612096611097611097610098610098611098612098142098143096142097140098142099140100141099142098180098180098179097178099179100179099179099180099208098206098206097206098206099206100207100207099518097519097518097517098517099517099518099519100124098123099123097122000000000000100122000000099155097155098154098153099153099152100154099155099162098162098161098160099160099160100161100162099198098198099198099197099196101197101197100200099420097421097421000000099420100418100421100422099549099549099549099548099547099548099549099550100592098592099590098590099590099589101591101591101116100117099115100115100116102115102116101116101185099185100185100185100185102184102185102185100349099351099348100348100347102347101348101349100492100492099491099490100490101490102492101492099526099526099525099524100524100524100525101526100530099530099529099528100528100528100529100530100558098559099559099556099558100557100558100559101133101134099132099132000000101132000000101134101348100348100347100346101346102346102347101348102438100437101436100435101437103437102436102437102451101452101450101450101450102450102451102452101516100516100515100514101514101513102515101515101142102141102141100140102139104139103140102142102164101164101163100162102162103162103163103164)
 (.leaf 101196101196102195102195103195103194102196103196102429101429100429101427101427103427103428000000102440101440102439102439102438103440104440104441102484101484100483101482101483102482102484102485102499102500101498101497103497104497104499104500101526101526100525100524101523102524102525102526103155103155102154103152103153103153103153104155102176102177102176102175103175103174103176104177103503102503103502102501103501103502104502104503102529101529101528101527102527103526103527103528103591102591102590102589103589104589104590104591104348104349102347103346105347106347105347104348104470103470104470103468105468105468105469105470103514102513104512102511104512105512104512104514104531102532102532102531103530104529104530105531104546000000102546102544103545000000105547104547105139105140105138105138105137106137106140105140106161103161104160104159105159106159106160107161000000000000000000105206105206107206107206000000106457104458105456104454105456105455105455106458104491104491104490103489104490105490105491105491107446105445105444106445106445108445108446108446105520104520104519104518106518107516106518106519106552000000106552106551106550106551106552106552107566104566106566106565107564107565107566107567107169107169107169107168108169108169109170109170107186105186106185107185106184108184108185107186107362000000000000000000000000107360108361107362107472106472107473106472107472109471109472107473106486105485105484105484106484108485107485107485108584107584107583106581108582108581108582109585106592105591106591105589107590107590108591107592)))))
 (.node 8 (.node 4 (.node 2 (.node 1 (.leaf 108137107137107136107135108137110136108137109137000000000000000000108206109206110206000000000000109146109146109146109145110145110146111146110148108155108156108155109154109154110154110155110156110178109178109177108177109177111176111177111178109189109189108188107188110188111187109189111189000000000000000000000000000000109355110354109357110551108549107549108549109549110549111550111550110372110373110371110371110372111372111373000000110465110465110463110463110463111463000000111465110472110472109471110469111468111470110470111470110501110502110502110500111501111501111502111503110513110515109512109511109511110512110512111513111550110549109549109548110548110548111547110549111162111161110161111160111160112160112161112162112166111166111165110165112164112165112166112167111485109485110484109484111483113484112484112485111577110577111576111574111575113574113575113576111596111595111594110594112594113594113595113596000000112152112151111151113151113151114151114152112376111376111375111374111375112375112376112377112445112445111444111443112443112442112443113445113450112449112449112448113448113449114449114450112562110561112561112559112560112559113561114561113137112137112136113135113135113135113136113138113162112162112161112160113160114160114161114162000000113201112201112200113200000000000000000000113593112593113592112591113591115591114592114593115187114188114187114185115186115185115186115187115456113455114455114455115454116454116454116456114491113491114491114489115490115489115490116491114506114507113505113504113504115504116505115506)
 (.leaf 114509113509114509114508115507116507116508116509113519112519112517113516113517116517116518114518114580114579114578114577114578114577114578115580116176115176115175114175116175117175116176117176114447000000114447114446115446115446116447116448115457114457115457115456116456116455117457115457115469114469000000114469114468115468117469115469116484114484115484115482116483117482117483117484116560115560115558114558115558117557116559117560116572114571115571115571115571117570117572117572114593114594114593114592115592115592115592115593117161114160116159116158116159117159116160117161116449116449114447114447116447116446116448116449116492115492116491115490117490117490117491117492116517116518116517116517116515118515117518116518116538115538116537116537116538116537116538116539118190117191116189117190118189119189119189119190000000000000000000117197118197118197000000000000116370116370116369117368117368118368117368117369117373115374115373115372116372117373117373117373117378116378116377116376116376117377117378117378000000000000116390116389116388117389117390117391000000000000000000000000000000117391117391117392117550117549116547117547117548119548119548117549118556115554117554116554117554119554119555118554119170117171117170118169118169119169120169120170117373116372116371116370117370118370118371118372119476118476118475118475118475118473119476119477119506118506118505118504118504119504120505119506119564117563118563118562119562120562119564120564120173119173119172119171120172000000000000000000120356118355119355118355120355121354120356121357))
 (.node 1 (.leaf 119363119363119363119362120362121361120362120365119403119404119402119402119401119402119402119404118452118453118452117451118450120451119451119452000000118457119457119456120457000000000000000000120572119572119571118571119571121570121570120573120346119348120346120345121344121344120345122347121352120353120351120351120351122350000000121353000000120440120440119437120439120439120439120440120541120543119542118541121540121541121542121543120569119569120567119567120567121567121568122568121151121151121150000000000000122149121149000000122359121360121359121357122358123358000000123359121506121507121505120504121504122504122505122506121531120529121530121528121529123528123529123530121141122140122140121138123138124140124140123140121402120402120401120399121400123401122401122402121414120414120414121413122413122412122413122414122447120446120445120444122445124445123446124447122507121507121506122505122505123505122506123507000000000000123167123166000000000000000000000000124359123358122358123356123357124355124358125359123462123463121461000000000000000000000000000000123495123495123495122495123495124495125495125496124516123515123514122512123514124514124515125515124517123518123516123515124516125515125517124518000000000000000000124165125165000000000000000000124387124386124385124385124385125385125386125387123488123487123486000000123486125487124487124487125524124522124522124521125522126522126523126524124580124581122580123580124580125580124580125582125346124346125346124344126344126344126345126346124372000000123372123371124370125371125371125372)
 (.leaf 125374124374124373124372124373126372125373126374125410123411123410124410124409125409125410125410125477125477125477124477125477127476125477125478125577123576124576125574125575125574126576126577125590123591123591124590125590125590126589126590125333125333000000000000000000127331126333126334127355126355126354125354127354127354128354128355126385125385124384124383126383127383126384127385125456125457125456125455126455127455127456126456000000000000000000000000126459127459127460000000127527126528126526125526127526128526127527127528125585124586124586124584126585126584126585126585127163127162127162126161127161128161127161128163127361127361000000127359127359127359127359127360127363127363127363127362127361128361127363128363126384126384126383126382126381127382127382128384127391127392127391126391127391127391127391127392126448125449126448126447127447127447127447127448126515126515126514127513127513128513127514127514128522127522127521127520128520128520128521129522128534127533127533127532128532128533129534129534000000000000000000126599127599127599000000000000128141128141000000000000000000000000000000000000000000000000128153126152128153128153000000000000127332127331000000000000000000000000128331128332127391127391000000127389127389129389128389128391127409126409126408126406127407129408128408128410129418126417126417126416128417129417129418000000128434127436127433000000000000000000000000129434129491127490128490000000128490000000000000000000128520128520127519127518127518128518128518128519128528127528127527128526129526129526128527128528)))
 (.node 2 (.node 1 (.leaf 128550128551127551126549129550129550130549130550128555128556128555127553128555130554129554130557130503129503130503130502131502131501131502132503130528128528128527129526130526130526130526130528130571130570130569129569130569130568131570131571132345131345131345131344132344000000133344133345131396130396130395130394131394132394131394132396130398129398129398129397130396131397131397131398130403129403130403129401131402132402131402132404000000000000000000000000000000131467131468132468131542130542131542131542132541133541132541132542130581130581131579131578131579132579133580133580132363131363130362130362132361132362134362133363133380132379132379132377132378134378134378133380132456131456131455131454131454132454133455133456133340132340132339131337132337133338134339134340134351133351133350133349134349134350134351000000132405132404131404132404133404134404133404133405133405132405132404131404132404133404133405134405133420132420132417133417133418134418133419133419133517131519132518131516134516134515134516133517134567133568131567132566133566134566135566135568133575132577132576132575133575135574134576134577000000000000000000000000000000134432000000000000133458000000133458133457134457135457134457135459000000000000135164134163136162135163135163000000134340134340133340134340134340135339135340136340135364135364135364135362135362136362136363136364134426134426133425133425135426136426135426136426136537135537135536135536136536000000000000000000136567135568135566134566135566135565135566137568000000136148000000000000000000000000000000000000)
 (.leaf 135418134418134417134416136417136416136417136418136471136471136471136471136471136471136471136471136527135527136527136526136527138526138527138528137329137330137329136327138328139328139328138329137348137348137348137348137348138348137348137348137361137361135361135360137359138359137361137362138448137447137447136446137446138446137446138448137509135510137508136507137507139509137509137510138530136531137529136527138528138529139530138531139154139155138153137152139154141153141154140154140374138374139374138372140372141373141374141375000000139546139545000000000000000000000000000000141353140352140352139351140351140350141352141353139465139465138463138462139462141463140463140464141520139519140519140518140519141519142519142520141329141329141328141327142328142327142328142329142356141356141356140356142354142354143356142356141387140387141385140385141385142385143385142387142516140516140515141514141514142514142515142516142331141331141330141329142329142329142330143331143371142371142370142369143369000000000000000000142388142388142388142388142388144388143389144389143412142411142411142411143411144411144411143411141459140459140458141458141457143458142458142459141468140469140469141468142468142467142468142469143158142158143158143157142156145157143158143159000000143370143369143368000000145368145368144369142455141455141454143452143453144453143453143454143174142174000000000000143172145173144173144174144176142177142176142175143174144175145175144177144360144360144360144359145359146359146360146361145383144383144382143382144382145382145383146383))
 (.node 1 (.leaf 143435143436143435143432145433144434144434144434145554143553144553143553145552146552000000000000146396145395145394145394146394146394146395146396146396145396145395145394146395146395146396000000145397145398145397145396146396000000146396146397145417145416145416144415144414145415145415145416145513143514145514145512145513145512146514147514147368146367146367146366147366148366148367148367146397145397145396146396000000146396147396147397147560146559146558145558145556146557147559148560147340147340147340147340147340148338147340147341146410145411146410146409146408147409147409147410146419146419147418145416148417148417147417147419147515147514146514145512147513148513148514148515148562147562146560147561148560149560148560149562148328147328147327000000148326149326149327148329149366148366148365148364148365150364149366150366149383148382148381148381148381149381148382149383148456146455146455148453148454148454148454148456148516147516147515147514148514148513148514150515149432148432147432147431148431149431149431150432149571148571149570149569149569149568149569149570149395148396148396149395149395150394150394150395150396148396148396148396149395150394150395150397150561150562150560150560151560151561152561151561151369151369150368151367152368153368152368153370000000000000150520150519151519152519152520000000152339152340152339150338152337152338153338152339153364152363152363151362152362153362152362154364152372152372152371152371153371153370152372152372152387152387151386151385152385153385152386153387152435150436151434151433152433153433153434153437)
 (.leaf 153331152331153330152329152330154329155330154331152339152339152338152337152338153338153339153340154382152382153381154380154380154380155381154381153398153398154398153396153397154396154397156399155345153345154344153342154342155343155343155344154347153348154347153345154346155345155346156346155404155405155404154402156402157403157404155404156570154569154568155569155569157569157570157570156329156329155328155327000000000000000000158330157355156354156354155354157354158354158354157356157361157360157359157359158358159358158358158361158516156517157515156515157515158515158516158517159416158415158415158414159415159415159416160417158436157436158436157436159434159434160435159436159383158385159383158383159383161381161382160383159414159414159413158412159412159411160413160414158442157443158442157441159441159441159441159442160372160373159371160371161371162371162372161372160403160403159402160401161401161401160402160403161385161385161385160383160384161384161385162387160393159393160391159391160391161391162393161392163361162360162360162359163359164359164360164362162417161417161416162414162415163415162415162416163458162457162456162455162456162455162457163458162208000000000000000000000000163206163206163207163223162223162222162221163221163221164222164223164353162354163352163352164352165351165352165352162418162418162417162416162415163416163416163418163453162453163451162451164451165451164452165452163396162396162395162394164395165395164395164395163420163421162419162418164419164419164419164421164421163420163420163419164419165419165420165421))))
 (.node 4 (.node 2 (.node 1 (.leaf 164426163426163426163425164425166426165426166426166224165224165223165222166222167222167223167224166232164231164230164230165229167228166230167230166236165236164234165234166234166233166234166235166242164241164241165240166240168240167241168241167349166349166348166348167346168347168349168350167366166366166365166365167364000000000000000000167445166445166444165444166444167444167445168446168346167346167345167345168345169345169345169347168351166350167350167349168350169349169350169351166433167432167432166430168431169431169432169432168449167448167448167447168447168448169449169449168208167210166208167206168206169206168208168210168221167221167220167219168219168219169220169221168406167404168404167402168402170403170405170405169442168443168442168441168441169441168441170443169210168210167210168208168210170210169210171210168252000000000000000000168250170251169251169252169344169345169345168344170343000000171344171345169407169408168406169406169405170405170406170407169224168224169224169223170223172223171224170224169243169244168242169242170242170242170242170243169245168245168244169244169243170243170244170245000000170377170376170375000000000000000000000000170384170385170384170383170382171382172384172385170443170443168441169441170441171441172442172442171444170445170444170444171443171444172444172444172414172414172414171412172412173412173413173414173227173227172226172225173225175225175227174227174238173238173238173237173237174237175238175238173379172379000000000000000000000000000000174379173394172394173392173392174392174392175392174394)
 (.leaf 174219173219173218173217174217175217175218175219173222173223173222172220174221175221175222175223175389174390173389174387174388176387175389175390000000000000000000173595174595175595000000000000175399175400175399175398176397177397176398176399175406174406175406175405175404175405176405177407175583000000000000000000000000000000175583175584175226175226175225176226177225178225178226176227177443176443176443176442177441178442178443178443178221176221176220175219177219177218178220178221177400176400176399176398177398177398177399178400177412176412176411176410178410178410178411178412177415176415176414176413177413177414178414177416178440177440177439177437177438177438178439179439177421176421177421177418178420178419180420179420178443178443178442177441178441179441179442179443179384179385179384179382179382180382180383180384181214180214179213180211180212182212182213182214181219179220180219180218181218182217182219182220181254180255180254180254180254182253181255182256179403179403179402178401180401180401181402180403000000000000000000179567180567000000000000000000180580180580180580179578180578181578181579182581181594180593180593180591180592180592180592181594181247180247181247181246182246182247183248182247181441180441181439180439181439182439182440183440183212182212181211182210183209184210184211184212183213182214182213182212183212184212183213184214183254181255182253181253183252183253183254182255000000000000000000000000181266183265182267182268182412182412181411181410181411182411183411182413182424181424181423181422182422182421182422183424))
 (.node 1 (.leaf 182568184567183569000000183261183260183259181258183259183258183259183260184245183245184243183243184243186243185244184244185589184590184589184588185588186588186589185589183637000000000000000000183635186636184636185636185266183265183264183263184263186264185264186266184412184412183412183411184411185411185412185412184570000000000000184569184569186569185569186571185270000000184270184269185268186269187270186270186440185440185439185438186438187438188439000000188209187209187207187206188206189207189208189209186270185270186270185268186269187268187269187270187403187404187403186401188402188401188402188403188219187219187218187217188217188217188218188219187225186225187225186223187224188224188225188225187384187384188384188382000000000000189383190384189418186420188418186416188416189416190418190418188647188646188645188644188645188644188644188646188274187274187273188271188272189273189273189274000000000000000000000000189284189284190285189285189241188241188240189240189239190239190240190240190250189250188248188247189247190247190248191248000000000000000000000000189285190285190286191288190421190421190421190420190419190419191420190421000000000000189438190436190437191437000000000000190395189395189394189393190393191393191394191395191400189399189398189397190397191397191398191400191231191232191231190230192230192230192231192231191411190411191411190410191410193408192410193410000000000000000000191437192437193437192437000000192254191254192251191251192251193251193252194252192401192401191400191398192398193398193399193400)
 (.leaf 193408191410192407191407192407194408193408193408193419193420191419192419193419193418193419193420194206194205192204192203194202195202194204195206193218193218193217192216194216194215194216194217193273193273193272192271194271194270194271194272193275193274192274192274193273194273194274195274193401192401192401192399193399194399194400194401193402192401192401192401193400194400194401194402193402193402192401192401193401194401194402194403195433194432194431194431194431194430194430195433194638193638193637000000000000196637196638195638195644194643194643194642195642195643196644195645194206193207193207194206195206196204195206196206194230193230194230193228194229196229195229195230196221195221194219194219195218197219196219196221196240194242194240195238195239196239196240196240195273194273194272194271196272197272196272196274195396195395194395194394195394196395196395197395195406194406194405194404195404196404196405196406197426196426196425196425196425196424196425196425196224196224196223195222197222198222198223197224196239195239195238195236197238197237197238198238196413195413196413196412196411197412197412197413198227197227196225197225198225198225198226199227198237197237197236197235198236200236199236199237200243199243199243199240200241201241201242201242201393200393200392199392201393201393201393201394200404199403199403199402200402202403201403201404202244201244201243200243201242202243202243202244202251200250201248200248201248202249202250202250202421202421202421202420203419203419203420203421203213202213201213201212203211204211204214203214)))
 (.node 2 (.node 1 (.leaf 202229201229201228201227202227203227203228203229202437202437202436202435203435204435204436203436204214202213203211202211203211204210204212205214203254202253202253202253203252204252204253204253204424203424204424204423205424206423206423205424205429204428204428202427204428205428205429206429203436202437202435203435204435204435204435204436204223203224204223205221205222205221205222206224204263204263203262203262204262205262205263205264205264203264204263203262204263205263205264206264000000204283205281205280205281206281206282000000205405204405205405204405206405206405206406207406206232204232204231204231205231206230206231206232205237204237206236206235206235206236206237206237206405206405205404206402206403207403208403207405206226206227205226205225207225207225207226207227206440206440206439205438207438207438208439208440207622205623205622206620206620207621207622208622000000000000000000207282208282000000000000000000209407208407208407208406209406209405209406208408208413208414208412208412209412210411209412208414208258207257207256208256209256209256209257209257208258207258207257207256208256209257209257209258000000000000209630209629209630210630209631000000212396211396211395211395212394213394213395213396210453000000000000000000000000211451211451211452210618000000209616000000210616211617211617212619211621210623210620210619210620211619212622211622211644210644210643000000211642212642212643211644212222210224210222212221212222213222214222212222211281211281212280210278212279212278214280213281213391212391212390212389213389214389213389214391)
 (.leaf 212400211400212398212397213398214397214399213400213404211405212403211403213403213403214404214405212643212643212642000000000000214641213643213643215245214245214245213245215244216244216244215245214246214246214245214245215244216244215245214246214417213417212417213417213416214416214416214418214641000000000000000000000000000000000000214641214270213270213269213269214268215268215269215269000000000000000000000000215639215638215639215640215237214237214236214235215236216236216237216237216246214246215245216244216244218245218245217246216261216262216260215259217260217259217260217261216609214609216608216608215607216607216609216610000000217392217391216391217391217390217391217392217233217233218231217231219230220230218231218232000000000000217280217279218279218278000000000000218400216399217397217396217396218398218398220400218615218616218615217613218615220614219614219615218626217626216626216625217625218625218626218627220243219243219243218243219243220243221243220243219448218448000000000000000000000000000000220448219608218608218607219607219606220606220607219609218621218622218621219618219618220620219620220620218625217625217624218624218623219624219624219625220268219268219265218264220264221264220266221266221404220404218403219403220403221403221404221405220643218643218642218641219642220642220642220644221243220243220242220241221241222241222242222243221599219600220598000000220598221598221599221599220654219654221654220653221653221652221653222653222233222232222231222231223230223231224231224233222243221243221242221241222241223241223242223243))
 (.node 1 (.leaf 222388222389222387221386000000000000223387224388223426221426222424222423222424223424224424224426222608222609220607221606222606222606223607222609222635221635221632220632221632223633222633224634223243222243222242222241223241224241224242224243223261221261222260222259223259224259223261223262223276222276223275222274224273223274223274223275223448221449221447000000222447223447223448223448222596221596221595221594222593224593223595223595224406223406223405224404224404224404224404224405225257223257225257225256225255225256225257225258225592225592224591223590224590225591225592226592225621223622224620224619225619225620227620225622224659000000225658225658225658225658226659227659226234225234225233226231226232226232228233227234227245226244225244225243226243227243227244227245226253225253225252226252227252227251228253226255225409225408224408225408225407226408226408226409226427226427226427225427227427228427228427227427226415225416226415227414227414227413228413227415227614227614226613226612226612228612227614227615227642227642227642227641228642229641229641229643229241227241228240227239228239229239230240230241228423227423227422227421228421228420228421229423227606226605226605226605228605228604228606228606228617226617226617226617228617228617228617228618228646228646228646228644228646229646230645230646230400229400229399229399230398231399231399231401229592227592229592229590230591230590230591229592231233228233228232228230230231232231232232232232231399230398230397229395231395231395231398231399231629229630230628230628230628230628231629231630)
 (.leaf 231636230636230635230635231634232634232635232636232240231240230239231238232238233238233239233240231254229254231254231253231252233253231253232254231405230405231405231404232404233403232404231406000000000000231425230425232424232425000000000000232637231637231636231635232635233635233636233637232395231395232395231395233394234394234395234395233634232634232633232633233632234632234633234634233414233415233414233413234412234412233413234414233592233592232591232590232590234590234591234592234635233635233634233633234633235633235634235635235241234241234240234239234239236238236239236240234253234253234253234252234251234252234253234254234401233401234400234400235400236400236400236401235612234612234611233611234611236610235612236612235633234632233632234631234631235631236632235633234658234659234658234658235657236657236657235658236242235242235242235241236240237240237241237241235647235648235647234645235645237646236646237648236620235620236618235618237617238617238618237618237652236652236651236650237649238649238651238652238233237234237233237232238231000000238233239234238605237604236604237602237603239603238604239605237606237606237604236604238603238604239605239606238617237617237616236616238614238614238615238618238624237624237623236623237623238621238624239624000000238228238228238226238227000000000000239229239595237594238594237592238592238593240594240594239611238611238610238609238610240609240610239610239627237626238626237626239626239626240626240627238639238639238639238639238639238639239640238639238657238657238657237655239656240655239656239657)))))))
 (.node 32 (.node 16 (.node 8 (.node 4 (.node 2 (.node 1 (.leaf 239257238257239257239256239257239256241257241258239402238402238401237401239402239401239402240402240621238620239620239620240620241619241621240622240648239648239648238646239648241648241648241648239230000000239230239229240229240228240229240229240412240413239411239410239411241410241411241412241606240606240606240605241604241605241606241607242224241225241224241222241223243223000000243224241412240412241411239411241410243410241412241414240655240654239653239652240653241653241653241654243635242635243635243635243635245635245635243635244225244225244223243223244223245223244223245225244594244594243593243592243593245592244594244594244646243646244645244645244644245644245645246646245239245238244238244237245237245236246238246239245246245246244245244244246244246244246245246246246243246243246241246240247241247241247242248242246652246653246652246651247650247650248651248653247645247646246644247644248643248643249645248645000000248590000000000000000000000000000000000000248644248643248642248641248642249642249643249643250235250234250233250233250233251233251234251235251242249243248242250240250241251241251242251243250655250656250655249653249654251653252654250656252226251226250226251225251225252225252226253226251237250237250236250235251235251235252236251236252649252649251648250647251648252648252649252650254709000000000000000000000000000000000000254710256224000000254224255223000000255222256224256225258222258222259221258220259220259220260219259221267226265225266225266224267224268224000000000000271225269225270224271222271223000000272224000000)
 (.leaf 273221272221272220273219273219274219273219000000278222278221277221278219278220279220279221279222280221279221279220279219280219282219282219281221000000000000000000000000283222000000000000000000057131056131057130056131057129057130058132057132084181084181085180085179085179085179085179085180013299000000000000000000013297015297014298014299016221014221016219015219016219017219017220000000000000000000000000000000016253017253016255016256000000000000000000000000000000016255016256016257000000000000000000000000000000016256016257016258000000000000000000000000000000016257016258016259000000000000000000000000000000016258016259016260016292015292015291015290016290016290016290016291017220016220016219016218017218018218019219017219000000000000000000000000000000018233018234017233017253016253000000000000016252017252017253017254016261016260000000000000016259017259017260017261016262016261016260000000016260017260017261017262016263016262016261016260016261017261017262017263017308000000000000016306017306018306018307018308017263016263016263016262017262018262018263018263017266016266016265016263017263018263018265018266017267016267016266016265017265018265018266018267019247017248019246019245019245019246019246019247018268017268017267017266018266019266019267019268018269017269017268017267018267019267019268019269018271017271017270017269018269019269019270019271018293017293017292017291018291019292019292021294019312000000018311019309019310020310020311020312000000000000000000018319019319020319000000000000019272018272018271018270019270020270020271020272))
 (.node 1 (.leaf 21273020273020272020271021271022271022272022273021274020274020273020272021272022272022273022274021275020275020274020273021273022273022274022275021301021302021301021300022300022300022300023302022307021307021306021305022305022305022305022306022270021270021269021268022268023268023269023270022297021298021296022296022295023296023296023296024230024231024229024229024228024228024230024230023276022276022275022274023274024274024275024276023277022277022276022275023275024275024276024277024278023278023277023276024276025276025277025278024279023279023278023277024277025277025278025279024280023280023279023278024278025278025279025280024281023281023280023279024279025279025280025281024281023281023281023280024280025280025281025281024284023285023284023283024282025282025284025284024290023290023290023289024288025288025290025290024294023294023293023292024292025292025293025295024296023296023296023294024294025295025295025296024314024315024314024313025313026313026314026315026313025313025312025311026311027311026311026312027565026565026564026563027563028563028566027567029555000000000000000000029553029553030552031555030252030252030251030250031250031250032251032252030571030573029572029571030569031569031572032572031258031258031257031256032256033256032257033259031267030267030266031265031265032265032266032267032250031250031249031248032248000000033249034251032264031264031263031262032262033262033263033264032304032303032303032301032302032301032302033304032570031568031567031566032568032568032568032570033263032263032262032261033261033261033263035264)
 (.leaf 33550032548032547032546033548034546034547034550033590000000000000000000033588033589034591033591000000000000000000000000034131034130034132034132033533033532033531032532034532034531035531035532034564034562034561032562034562035562034562035564036293035293035292036290036291036291036292037293036536035534035533035532036534037534037535037536035579035577034577035577036577037577037578036579036581035581035580035579036581037581037582037583036589035589035588034588035587037587037588037589036606035604034603034603036604036603037605037606037131036133036130036129037129000000000000000000037199035199036198035198038198038199038200039201037546037548037545035544037544037545038547038548037553037554037553036551037551038553038554038555000000000000000000000000000000037635038638037637039269038268038268038267039267040266040268040269037563036564037563037562037560039562038562039562038570037570037569037568038568039568039569038570038649036649036648036647038647039647039648038648038652036650036650036650038650038649038650040652000000000000000000038302039302039301040303039304039416000000000000000000000000040414039414039416038524038524039522039521039522040522039522039524039551038553038552038551039549039551040552039552038655038655038654038653039653040653039653039654040583039583040582039581040581042580041582041583040624038626039625039624040624040624040624041626039679038678038678038676040677041677041678040679000000000000000000000000000000040706041707040708041112000000000000000000000000042110042111042112042270041270041270041268041268042268042269042270)))
 (.node 2 (.node 1 (.leaf 42292041292041291041291041291041291041291042293040420000000040419040418041418042418042419042420041608040608040607040606041606041605042607041608041668041667041666041665041666043665042667042668041049041049042048041047042047042047042047043047042112041112000000000000042110042112042112043112042276042276042275042274042274043274044276044276041426040426041425040424042424042423043425044426042498041498042498042497000000000000043497043498042538041538041537041536042538043536043537043538042608040609041609041608041608042607043607043608042647042646041646042645042645043645042646043647042706040706041707041704042704043704043705044707043041042043042042042041043039045040043040043042043107041107041107042107043105044107043107044107000000000000000000000000000000000000000000043163043268042268042267042266042266044266044267043268044278043277042276042275044276045277045277045278044284043283043283043282044282045283045283045284043517043517041516042515043515000000000000044517043536042538042535042534043534043535044535044536043548043548043548042548043546045546044549043548043557042559043557043555043557044557044558045559043630043631042631042628042629043629043629044630043666043665042663041663043664043664043664044664044082043082043081043080044080044081045083046084044263043263042262042262044261045261045262045263045405043406044405043404044404045404046405045406043579043580043579043578044578045578045579045580044608043608043607042607043607045606045607045608044624043624043623042622044622044621045623045624044627042627043626042625043625044625045626044626)
 (.leaf 44633042633042633044632044631045631045632044634044644043644044642044642044642044641045641045644044694043696043693044692044692045694045695044695045043044043043042043042045041047041046042045044045170043171043170000000000000045169045171045171045262044262044261044260046261046260046261046262046281045281045280045279046279047279046281047282045442000000000000044440045440045440046441000000045568045569043569044568045568045567046567045570045581044581043579044579045579046579045579046579045597044597044596045595045595046595047596046597045608044608044607043607045606046606046607046608045666044664043664043664045664046664046665045666000000000000000000000000046143046142047142046144046402046402045401046400046400048400047401047402047407045407045406046405047405048405048406048407046484046485045483046482047482046483047483047484045633045632045631044631045631046632047633046633046689045689046688046688046687047687046690047691047053047053046054046053047051049051048052048053047067046067046066046065047065047067047067048069047116047115045113047113047114048112049114049115047120046120046119047118047118048118048119048120046218046218046217046216047218047218047218048218046415047414047414047412047412048412049413048414047494046496046495046494047492048492047493048494047531045533046532047529047531048531048532048533047539045539047539045539047537048537048538048539047599047599046598046597047597049597048598049598047647046647046646046645046645047646047647047649047661046661047660047659047659048659048660048661047707047707047707047706048706049706048706048707))
 (.node 1 (.leaf 48089048088047086046086048087048087049088048089049403048403047402047401048401049401049402000000048556048556047555047554048554049554050555049556049563047561046561048560048561049561049562050563049576048576048575047575048575049575049576049577049591047591048589047589048589048588049590049591048683046684047682047681048681049681049682049683048119048119048118048117049119050117050118050119049132049133048131047131048131051130050133051133000000048279049277048277049277051276000000000000049410048410000000000000000000000000000000050410049427048427048426049425049425050425050426050427049505047505048504047503049505050505049506049506049562049561048561048560049560050560051560050560050583048584048583049581049582051580050583050584049610048610048609049608049608049609050609050610049697048697049697048697049697050697050698050699049709048711049709048707050708050709050710050711050123048124049124049123050123052122050124051125050144049144048142050142050142051142051143051144050402049402049401049400050400052399051401000000050413049413049412049411050411051411050413051413050429049429049428049427050427051427051428051429049516048516049516049515050515051513050514050516051554050555049554050552050553051551051554051555050564050564049563049562050562051562051563051564050609048608050608050607051607051607051608051609049663048662048662049662050662051662050662050663050670049670050669049668050668051668051669051670000000050715049713050714000000050713051715000000051108049106050105049104051106052106052107052108052145049145050144050143051143053142051143053144)
 (.leaf 51172050172051172051172052172052172052173052174051263050263050262051261051261053261053263051263052399051399050398051397052397053397053398053399051401050401050400051399052399053399052400000000051448049449049448050446051446051448051448051448052458050457050456050455051457052455051457053458051645050645051643050643051643053643051643052643051682051683050681049681051682051681051681052684052074051074051071051070052070052072052072053072052092052092051091052092052090054090052092053092053396051396052394051394053394053394053395054395053485051483052482052482052483052483053484053485052494050495051495051492052492053492052494052494052525051525051524051523051523052524052525052526052539051539052539051537052537054538053538053539053633051631052631052631053629054629053630053631052695051695052693052692052693054692054694054694052710050708050708051708052708052708053709052709054127053127053126053126054127054127054128055129053150051152052151052150053150054150053150053150053394053394053393052392053392055392055392054394053440052438052437052436052437055436053438053438052560051559052560052557053557055557053559053559053596052596052595052594053594054594053595054594053042054041053040054039054039056039055040055041054048053048054048052047053048056047055047056048054079052080053080053079055078055079054079054080054114053114053113053112053113054113055113055114054472052473052473053472054472055472054472054473055059055059055059054059056058056059057058056059055092054092054091054090055090056090056091056094055137054137055136055136056135056135056136057138))))
 (.node 4 (.node 2 (.node 1 (.leaf 54394055392055393057392056394000000055421054419055419055418055419056417056418057421055581054581053579054579055579056579055579056579055632054632054631054630054630056630056631056632056657054656054655055655055656057656055656056658000000054691000000000000000000000000055689055689057109055110055109056108056108056108056109057110056141055141055140055139056139058139057140056141056394055394055393056392056392057392057393057394057431056431056431056430056430058428057429057430056466055468055465056464056464057464057467057468056509055511056508056508057508057507057508057509056612056613055613056611056612057612057613057614057071057071057071057071058070059070058070058071057090056090056089055088056090057089058089057091056155055154055154056153057153057152059153059153057156055157056157055155056155058156058157057157057171056171057170056169057169058169059170058171000000000000000000056172057172000000000000000000057402056402000000000000000000000000000000058402058413057413057411057411057412059411059412059413057522057522056521057520057520059521058523057522057561057562056560056559057561058561059561058561058163057163057162057161058161058161059160059161058169057169057168057167058167059167059168059169058207058208057206057205058205059205059206059207058453057453057452056452057453059453058452059453058590057590057589057588058588059588058589058590058632056632057631057630058630059630059631058632059382059383059382058382060382000000061381061383059394058394058393059391059392060392061393061394059471059471059470059468059469060469060470059470)
 (.leaf 59507058507057506057505059507059506060506059508059540057539058539058538059538060538059538060540059563058563059563058561059561059561060562059564059594059593059593058592059592060590059592060594059638059639058639059637060637060636060639061639060045059045060045059045060045062043061044062045060106060106060104060103060104061104060105061104060116058117059115059114060114061114061115062118060204059204000000000000000000000000000000061204060219059219059218060217060217060216061218061219061486060486060486060485060485060484061486061487060494060494059493060492060492061492061493060493060501058502059502058501060499060500060501060501061525060524059525059522060522061522062523061524060614060614060613058612060612062612062612060613061047061048060046060045062045062045062046062047061113059113059113059112060112062113062114061114060125059126060123060122061124061124061124061124061146061147061146061145061144061145062145062148062443060445060444059442061443062443063442062443061517059516060516059514061515061514062516061517061576060576059576060576061576062576061576063578000000000000000000061658000000000000000000000000061137060137061137061136062136062136062136062138062158060157061157061156062156064155064155064156062167061167062166062165062165063165063166063167062204061204000000000000000000000000000000000000062386062386062386062385063384062385062386062387061416000000000000060413062414063414062414062414063437061436061435062435062436063436063437064438062460062460062460061460062458063458062460062460062536061538062535062535062534064534062536062536))
 (.node 1 (.leaf 61598060598061597061596062596063596062596063596061611062612061611060610062610063608063609063610063098061100063098062096063098064096064097063098063218062218062217063216063216063216064217065218000000000000000000000000000000063224063224064224062424063423061423062423062422063423063423063423063437063437062436063435063435065435063435063436063474062474062473062472063472063473064473065474064488062488062487063485063486064486064487064488064634062634063634062632063632064632064633064634064229062229063228062227063228064227064229065229064447064447064447064446065446066446065446065449064450064451063451063448065450066449066450066450064498063498063497063496064498065498064498064499065130064130063131063129064129065129067131065130065553064553064552064551065551066551065553065554065565065565063565064565064564065564066566066567065622064622063622064622064621066622065622065622066433065433065432066430066431067431066432066432065493065493065492065491066491067491066492066492066576065576064576064575066576066575067575066576065621064620064620065619066619067619067620066621067115066115066114066113067113067111068112067114067446067445067445067444067444068444068445067446067474067475066473065473068473069473068473068474067510066510066509065508066509067509069509068510067558066558065557065557067558067556068559067558067683066681067681066681067681068679068682067682067166067167067166067165068165069165069166068166067174066174067173066172068172068172069173069174068208067208067207067206068206069206069207069208068490067490067489067488068488069488069489069490)
 (.leaf 68515067515067514068513068513070514070515069515068541067541066541066540068539069541069542068542067571066571067572067571068571068571068571068572068603067603067602068600069600069601068601068602069103069104069104069101069101071102071102071103068175067175067174067174069174069174069174069176069182067182067180069180069180069180069181069181069211068211068210068209069209071209070210070211068223067221068222068221068221069221070220070221069418068418068417068416068417070418069418069418069526067527068527067526068526070526069525070526069535067535067532067532069531070531070532069533068564068563067563069562069563070563070564069564069578069578069578068576069576070578071577070578070437069437069436069435070435071435071436072437070515069515070515070514070513071513072514071515069591068591070590070590070590070590071591071592070615070616069614070614071615072614072614070616000000000000000000070629070630070629070631070631070131069132069131071130071130072130071131072132071143070143070142070141071141073141073141071142072421071420069420069418072419073419073420073422070453070453069452070453071453072451072452071454071488070488071486069485071486072486072487071487072614071615071615070614071614073613073613072614073114072114071114072113072113073113073114074115071134071135071134071131072133072133074133072134071178071179070177071177072175072177072178072178072212072213071211071210072210073210073211073212071231071231071230072230072231072231073232073233072407070408070408070406072405073405072407072407072472071472070472070471072472072472073471073472)))
 (.node 2 (.node 1 (.leaf 72489071489071488071487072487073487072487073489072513071513071512071511072511073511000000073513072527070527072527072526073526073525073526073527072545072546072544071543072543073543073544072545071564070563071564071563072563072563073564074565071590070590071589071588072588072587072588073590073142073141073141072140073140073139000000074142073187072185071185071185073185073185073185073187000000000000072195072194073194074194074195000000073376000000000000000000073374074374073376073377000000071507072505000000073506074506074507073506073513072513072512072511073511073512074512000000072543072542071542073542073542074542073543074542073576072576073575073575074574074574074575074576074158074158073157072156074156075156075157075158074393073393073392073391074391076391074393075393074404073404073403074402074402074403075403074404073534072534073532073531074531075531074533074533075167074167074166074165075165075165076166076167075187073187073185073185075185075185076186076187075209074209074208074207075207077207076208077210075416075415075415075414075414075414075415075415076423075422075422074422076421077421077422077422074527073527074527074526075526076524076525076526075549075549075549074549076548076547076548076549075621075621074620075619075619076619076620076621076633074635074632075633075633075632077633077634076385075385075384074384076383077383076384076385076391076391076390075389076389076389076390076392076438075438076438076438076438077438078439078439076498076499076499076496076496077496077499076498076589076587076587074586076587076587078587077589)
 (.leaf 77613076613076613076612076612078611078611078614078136000000077134076134077134078134079135078136076183075183076182076181077181078181078182078183077210077211077210076208077208078208078209078210076372076372075371076370077372077371077372077373077403076403076402075402077403078403077403078403077428077429077427076426077426078426079428079428077443077444077443077442077443079441079443078443077476077477076477076474077474079474078475078478076533076534075532075531076531078532077532078532077552077553077552076550076550077551077552077553079126076124078124078124079122080123080123080125078156077156077155077154078154080153079155079156077187076187077186077185078185080183079186078187077198000000077198077197078197078197078198078198078200000000000000077198077198078198078198078199000000077242078240077240079238000000000000000000078468078468077467076466078466079466080467080469078548076548076548077548079546079546079547079548078577078577078577077575078575080575079576079577078622077624078623077620079621079620080621078622079117078117079117079116080117080117081117081119079138078138078137078136079136080136080137080138079172079173078173079170079170081170081171079172078206078205077204078203078204080205079205080205079446078446078445079444080444081446080445081447079576078576078575078574079574079574080575080578081224080223080223080223081222000000000000000000080503079503079502078502079501080502080503080503080566079568079567080565080566081566081567081568081586079587079586080583080585080585081586081587080591078591000000079591080591081591080591080591))
 (.node 1 (.leaf 81362079362000000000000080360081361081362081363081486081486081485081484082484083485083486000000081563079563080562081561081561082561081561082563081597079598079598080597080595081595082598082599082127081129081126080126083126083125083126082127083143081143082141082141082141082140083142083143082172081172081171081170082170083170082172083172082215082215082215081215082215084214082215083217082387080386081384082385082385083385083386082386083415081416081415082413082414084414084414083416082439082438082438082436082437084436084437082439082466081466081465081464082464000000083465084467082500082501080500080499083499083498083499083500082545081545081544082542082543083543084544083545082568081568081567081566082566082565082566083568082127082127081126083126083125084125085126083127082158082158081158082158083158085157083158084160082375081376082376082373083375084375083375084375083609083609083609083608084608085607084608084609084200082201082200084200085200086199085201086201084364082365082364082364084362085362085363084365083403084402084402084402085400086401086402086402085423083422083421084422084422086422086422086423084532084533084532084531084530084531084532085534085551083551083550083549084549084549084551085551085571084570082570083568083568085568084570085570083595082595083595082594083594085594084594084595084138084139084138084137085137085136085137086137085441084441085440084441085439086439086440085442085469084469084468084467085467086467086468086469084582084583085581085581085581086581086582000000086216086215086214085214086214087214087215086215)
 (.leaf 86515086516086514085513086513086514086515086516086536085536085535084534085534087534087535086536087146087146085144086144087144087144087145087145086150085150086150086149086149087148087149087149086166085166086166087164087165088163088164087166088226086227086224087224087225089225089226088227088394086395086394087393087393089392089393088395087402086402086401086400087400089400089401088402088417087418087416087415088414089415089416089417087468086468086467086466087466089466088467087468089173088172088171087171088171089171089172089173088532088533088532088531000000089530089531089532087627086627087627086625088626089626088626089626089127087128088126087125088126089126091127089128088144087145087145087144089144089143090143090146090369088369089369087368088368091369091369090369090383089383089381089381089381089380089382090383089396088396088395089393089394090392089395089396089439088439087438087437088437090437090438089439089452089452088451088450089450090450090451090452089467088467089466088465089465090467089467089468089532088532088531000000089530089530089532089532089609089609088608088607088607089607089607089608090158089158089157089156090156090156091157091158000000000000090453089452090452091452091453000000090567090568089568089565090567090567090567091567092164090163091163090163091163092161092164093164091359090359089358089358090357092357092358091360092410091410091408091408092407092408092409092410091487090487090486090485091485091485091486091487092606089607090606090605091605092605092606093607091612089613090611090610090611091611091612091612)))))
 (.node 8 (.node 4 (.node 2 (.node 1 (.leaf 92522092522092522092521092520094521093523093524092126091126092126091125093125093124094124094125093178092180092177093177094177094178095179095179093454092454092453093452093452093451094453093453093509092511092508092507092507093508093509093509093603092603092602091601093601094601093602094603094133094134094132094131094131094132094133096134094161094161093160092158094159096159095160096161096152095152093150095150095150095150095150096152096534094535094532095532095533096531096532096533096111094111000000000000000000000000000000096111096166096165096165095164096164096164097165097166097215095214096214096213097213000000000000000000096347096348095348095347097346097345097346097347096476095476095475096474096474096474097475097476097134097135097134097133097134098132097134097135098361097360097360096360097360097360097360000000097508096508096507096506096507098506098507097509097520097520096519096518097518097518099518099520098596095597097595097594097595099593098596099596097155097155097154097153098153099153098153099155099177098177097176098175099174100174099176100177000000098412098412098410000000000000000000000000097421000000000000000000000000099420098420099420098453098453097452098451098451000000099450099453098611098611097610098611099609100611100611100611100141099141098142098141100140101139099140099142100163098163098162098161099161100161100162101163099179099179099179098177100179100179101179099180100207099208099206098206099206101205100207101207099491098493098490098489099489101490100490099491099548099549099548099546099546099547099548099549)
 (.leaf 98559098560097558097557099556099558099558100558100593098593098592099590099591101591101591101592100122100122000000100121100122100121100122000000100200099198100198099196101197101196101197100200100348099348100348100346100346101346102347101348100531099531099530099529100529100529100530100531101116101116101116100116102115103116103116102116102185101184100185101182102184103183103184103184100483100483100482100481101481101481101483101483101526099526100525100524100524101523101524101526101134101133102133000000101132102132102133102134102165102165101164101163102163103163103164104165102347102347101346100345102345103345103346102347102428100429101427101426102426102427103427103428102439102439102439102438102437104437103440104440101453101453102451102451102451104450104450104451101530100530100529100528101528102528102529102530104156102156103155102154103154103153104155103155104499103498103497102496104496105496105498105498103502103502102501102500103500104500103502104502102532102533101532101531102531103530103531104531103592102592102591102590103590104590104591103592104347102347103346103345105346000000106347105347104469104470103468000000000000105467105468105469103515102514102513104512104513104512104514104515105162103162103161104160105160106160107161107162000000000000104458105456105457105455106458105459104520103521103520103519104519105519105520105521105485104486105484104483105484106484106485106486106551106552106551105549105550106550106551106552105591105592104591104590105589107590106590106592107185106185107185105183106183107184108184108185))
 (.node 1 (.leaf 108446107447107446107446108446109445109446109447107567107566107565107564107565108565108566107566107582107583106581106580107580109580108581108582108157106156107156108155108155108155108155108156108361108361000000000000108359109359108361109361107473107472108472107472109471110472110472110472109512107512108511109511108510110512109511109512110148109146110146110145110146111146112146110148111178110178110177109177111176111177112177112177109189110188110188109186111187110186112187111188000000110472110472109471110471110470111470110472111550110551110549109549110549111547110549111551111163111163111161110161111161112161112162111163111168111167111166111165111166112166112167112168111465110465111463110463111463111462111463112465111484110484109484110482110482112482113484112484111503110501111501111501111501113500112502111503111578111578110577111576111576113575113576113578112596111596111595111594111595113595113596112597113446111446112445111444112444112443113445113446112563110561110561112561112561113561114561112562113136112136113135113135113134113135113135113136114152000000113151113151113151114151115151000000114163111163112162112161113161114161114162114163000000000000113201112201113201000000000000000000112517112517000000111516112515000000113517113517115448113449114448113447114447114447114447116449115457114457113455114455114456116454116456116457114469112471114469112467114469114468114469115469114490114491114489114488115489116489115489115490114508114509114508114507114506115506116507116508114581114580114579114578114579114578115580114581)
 (.leaf 114593113593114591113591115591115591115592114592115187115187115187115186115185117186117186117187115483115484115482114481116482117482117482117483116505115505113504113503116504117504117504117505116162114161114160116159116160116160117161117162117177116177116176116176116176117176118176117176115374114374114373114372115372116372116373117373116377115377114377114376116375117375116376116377115457115457116457116456116455118456118456118458116516116517116517114514117514118515118515117518117561116561116560116559116559117557117560118560117572116572116571115571117570118570117572118572116370115370116370116369117369117368117369117370116372115372115371115370116370117370117371117373000000000000000000116390117390117390117391117391117491117491117490117489117489118489117490117491118551117550117549116547117549119548117549118551119190118190118190118189119189120189120190120191118453118452118452117451117451118450118451118452119477117476118476118475118476119476119477000000118505118505118504118503118503120503119504120505118554118556118554117554119554120554120555120556119565117564117563118563118564119564120564120566120172119171119170119170120169120170000000000000000000120173120172120172000000000000000000000000120345120346120345120345121344121343121344120345120358120356120356120356120356122355121357122358120362120362120362120362120360121360121361121362119442118442120440120440120440120439120440121442121152121151121151121150121150121149000000122150121353121352121351120351122350123349122352123352120402119402119401120399120399121400121401121402)))
 (.node 2 (.node 1 (.leaf 120447120446119445119445120445121446122447122448121532000000120529121530121530123529123530000000121414121414120414120414122414122413122414123414122506121506122505121504122504122505123505122506123140121141123140123138124140124138124139125141123486123486123486123486123486123485123486123486124581122582122581122580123580124580123580124580124388123386124386124385124386125386125387125388125496123495124495123495124495126494126495126495125517124517124516124515124515125515125516126517125519124519124517124517125517126517125518126519123576122576122576122575125574125575124575125577123591122591123591123590124590125590124590125590125333000000000000000000000000000000125333125333125345125346124344000000126344127343126344126345125373124373124372000000124372125372126372125373126524125524125522125522126522127522127523126524124586124585123585124585124584126585125585125585126458125458125457125456126456127456126456126458128355127355127354127354127354129353129354129354127362127363127362127361000000127361128361127363127385126385126384126383127383127382128384128385127391126391127389127389127389127389127389127391126409125409125409126406126406127407127408127409127448125449125449126448127448127447127448127448127532127533127532127531128532129532128533129534128154128155000000128153128154000000000000129154128330000000000000000000000000000000000000128331129418126419126417126417128418129418000000129418128433127433000000000000000000000000000000000000000000128492127490128490128491000000000000000000127514126515128513127513128513128512128513128514)
 (.leaf 128521128521128520127519128519128518128519128521130550128550129550129550129550131549130549130550129554129554128555129553129554131553131554131554129398128398129398129397129397130396130397130398129404129403128403129403130403130403130403130404130502130503130502130501131501131500131501131502129529128528128528128527130527130526130528131527130572130572130570130569130570131570131571132572130396129397130396130395131395131394132396131397131456130456131455131453131454131454131454132456133344132344132344132342133342133342000000133344132362130362130362130361131361133360132362134362132405131405131404130404131404132404132405133405132541132541132541132540133540134541134541132542132340000000132340132339133339134339134340133340133380133380133378132378134378135378135379135380133516132518131516131516132515134514134515134516134340132340132340133340134340134340134340134340134351134353134351134351134351134351134351134351134426132427132425132425133425135426134426134426134460133460000000133458134458134457135459135460135569134569134567134567135566136567136567136569134578132578133575134576134576134575134577136576000000000000000000135164135164135163000000000000135363135364135362134361135361137361136362136363134418133419134418134417134416136417135417135418000000136537136536136536000000000000000000000000137568136569136567136567135566137567138567137569137449137449137447137447137447137446138448138449137508137508136507136506137506138506139509137509138528136527137527136527138526138527138528138529137532137532136531137529137530139530138531138532))
 (.node 1 (.leaf 138153138154137152137151138153139153139154138153139328138328138328138327000000000000140327140328139373139374138372139372140372141372141373141374141353140353140352140352140352141352141353142354139466139466139465138463140464140463140464140466140469140470140469140468141468142468141468141468142520141520141519140519141519142519142520143521142330141330141329142329142328142328142329142330142356142356142356142354142354144354143355143356142387141387142385141385142385143385144385144387142517142517142516142515142515144515142515143515143157143158143157143156143155000000145157143158142176000000000000000000142174143174143174143175000000143371143370143369000000145368144369145370144389142388143388142388144388144388144389144390143411143412143411143411144411144411144412144413000000000000000000142435143435143435143435144437142455142456141455141454143454143453143454144456143174142175142174000000144174144173144174144175146361144360145360145359146359147359147360146360146383145383145382144382145382145381147382147383145396145397145396145395146396146396000000146396000000145554145553145552146552147552000000000000145411145412145411145410146410146410146410146411147514145513146513145513145512147513147514147515148367147366147366146366148365149366149366149366146419146420146419147418147418147417147419147419148560147561147560147559147559148559149560149560149383148384148382148381148382148382149383149384148432147432146432147430147431148431148432149432148457148457146455146455148455148454148456148456147516147517147516147515148515148514150515150517)
 (.leaf 148396147397147395148395149395149395149395149395150571149571148571149570149570149569149570151571150436150435150434149434151433152433151435152435000000000000000000150520151520152520000000000000152368152368152368152366153367154367154367154369152371152371152371151369153370153369153370152372153330153330152329153328154328154328154329155330153338152338152337151337153336153337153338153339153345153346153345152342154344154344155345154346153348152347153347153346153345154346154346154347154383152383152382153381154381155381154381154383154397154398153396154395154395155395154396154397155403155404154402154401156401157401157403157404156328155328155327155326000000000000000000000000157570156570156569155569157569157569157570158570157356157355157354157354158354158354159354159355158361157361158359158358159358160358159358160360158442156441157441156440158440159438159441158440158518158517158516158516158516160516160517160518160417159416159415159415159415160415160416161417159436158436159436159434159434159434160435159436160371159371160371160369161369162370162371162372159393158392158391159390159391160391160392160393160402159402160401160400161400161400161401160402160415159415159414160413160413161413161414162414161384161385160383161382160383161383161384161385162418161418161417161416162416162415162416162418163458161459162457162456162457162457163458163459163224163224162223162222163222164222164223164224164362163361163360163359164359164360165360164360162396161396161396162395162394164395163395163396163421161420161419161418162418164419163419163420))))
 (.node 4 (.node 2 (.node 1 (.leaf 164454162454162453163451163452164452165452164454165352164353164352164352165351166351166352165352163426163426162425162425163425164425164426164426164230163231164230164229164228165228165229165229165236165235163234164234165234166234165234166236166225165225165224165223166223167223167224167225000000000000164241164241166241167241168241166242167350166350166349166348166349168349168350168350167210165210165208166206167206168206167208168208167222166222166221166220167220167220168221168222168347167346167346167345167346169345169347169347000000167366167365167364000000000000000000000000167431167432166430166429166429169431169431169432168446167445167444166444167444169443168445168446168210166211166211167210168208168210168210169210000000000000000000000000000000168250168251168252169443167444168443168442168442168441170443170444168451168451168449168449169449169449170450170450169244167243167242167242169242170242169242169243168246000000167245167244168244169245169245169246170405169403168402168401170402171401171404171404171345169344170344170343000000000000000000000000170407169407170407169405170405171405171406171407172384171383170382171382171381172381172382172383172442170443171441170441171441173440172442172443172226171226172225170224171224172224173225172226172413172414171412171411172411172412173412173413174238173239173238173238173238175238175238173240173219172220173219173218174218175218175219174220174224173224173223173222174222175222175223174223174394173394174392174392174392175392176392176393175390175389175388174388176387177387177387175389)
 (.leaf 175582000000000000000000000000000000000000175583176414175414176414176413176412177412177413176414177222177222176221176220177220178220178221179222176227175226177226177225178225179225178225179227177399176399176398177397178397178397177398177399177411176411176410177409177409178409178410178411176421176422176419177419177418178420177420177421178443177443177442177441178442178442178443179444178441177441178440178439178439179439179440179441179444178443178443178442178442179442179443179444180215179215180214179213180213182213182214181215181220179221179220180219180219182219182220182220180384179384180384179382180382180383180384180384180402179402178401179400180400180400180401181402180579180580179578000000000000000000181578181579000000180594180593180593180593180592181594181595182256181254181254180254182253182254183254182256182247181247182247182246182247184246183248184248182256182256181255182253182254183254182255182255182425181425181424181423182423182422183424183425183440181441182439181439182439183439183440184440184212183212183210183209184210185209184211184212183215183214183213183213183213185213185214184215183262183261183260183259183260183259183260183261183265183264182263182262183263184263184264185266000000000000000000183569184569184569184569184570184635000000000000000000183634184633186636184636185589185589185589185588186588000000000000186589187403184402184402185400186400186401188402186402000000000000185440185439186439188439000000000000186225185226185224186224186223187224187224187225186271185271185270186270187270187269187270187271))
 (.node 1 (.leaf 189208188206188206188205189206189206189207190208188220188220187219187218188218188218188219188219000000000000000000000000000000189284188284000000188383188384188382000000000000000000000000189383188648000000188646188645188646188644188646188647189272187273188271187271188272189271189273189273190418189418189418188416189416189417191419190418189243188242188241188240190241190240190240190242190247188248188247189247189246190246190247190248189395188395188394188393189393190393190394190395189398188398188396188396189396190397190397190397190420190421190420190418190418191418190419191420000000000000000000189438190438000000000000000000191232189232190231190230190230192230191230191231192251190252190251190251191250192250192251192251192401190400191400190397191398192398192399192401192407190408190407190406191406192407192407192407192413191413190411191411192411192410193410192413193420190419191418191417192419193419192419193419192204191203192202191202193201194201194202193203193219192219191218191217193217193217193218193219193273191272191271192271192271194271193271193273193274191275191273191273192274193273193274193275192401191401192401191400192399193399193400193401192401192401191401192401192401193400193401193402193207192208194206194205194206195206194206194206195433193434194432194431194432194430195433195434195221193220194220193219194219195218195219196221194240193240193239193239194238195238195239195239194273193273193273193271194271196272195272195273194395193394194393193393194394195394195394195394194406193406193405194403194404195404195405195406)
 (.leaf 196644195642195642194640196640197640196641196644195239195238194238194237195236197238196238196239195413195413194414196412196413196413196413196414197224196224198222197222198222198222198222198224197237197238197235196234197235198236198236198237200392199392199391199390199391200391201393200392201244200244200243199243200243201242201244202244200405199406199403199403201404201403201404203405202213201213201212200211201212203211202213203213201229200229200229201228201227202227202228202229202248201248200248201248201248203248202249202250202437202436202435201435202435203435202435202437202253201253201253202252202252204252203252203252203420203420203419203419204419204418204419203420204211203211202211204210204211205211204210204212203224202224203223203222205221205222204222204223204263203263202262202262203262204262204263204263204438202437202437202435204436204435204436204438204232204232204231204230204231205231205232206232000000205283204283205281205282206282000000000000205424204424205424205424206423206422206423205424204430203430205429205429205429206429207429206429206227204226205226204225205225207225206225206226206236206236206235206235206234206235206236206237207406205405206405206405206405207405208406208406208406206406206405207404208403209404208405209405207441206441206440206439207439208439208440208441207621205622206620000000206620207619207621207622207257206258206257206254208256209256208256208258207259206258206258206258207257208258208258209258209412209412209412209412209412211412211412211414209616000000000000208615210616210615210616210616)))
 (.node 2 (.node 1 (.leaf 210620209620209619000000000000210620210620210620210643209643000000000000000000000000211642210643212282211282211281212280212280214280213281000000213396212396212395212394213394214394213396214396212406212405211405212403212404214404214405214405212222212222213222212222213222214222215223215223214391213391213390213389214389214388215391215391213400212400213398213398214397215397215398215400213642212642000000000000000000000000214641213643214270213270213269212269213269214270214270214271214237214237214236213235214236215237215237216237216244215244215244215244214243215243217244216244215245215245215244215244216244217244216244217245216608216608216608214606215607216607216607216609218245217245216244217244218245219243219245218245217261216261217261217260217259217259218260218261217392216392217392217391217392217391217392217393217401215401216400215398217397217399218400218401218234216234217233218231218232218231218232219234218625216626216625216625217624218625218625218626000000000000000000219280000000000000000000000000219404218406219405218404218403219404221404221405219607218607219607218605219605219606220606220607219615218615219615218615220614000000220614219616218623218623218622218621219621219620220620220621218642217642217642217641219642219641219642219642220265219265218264220264220263220263221264220266220598000000000000000000000000220597220598220598221244221243220243220242221242222242222243222244220654220654219654221654221654221653222653223654223234222233222232222231222232224231224233223234222244221244221243221242222242223242223243223244)
 (.leaf 222260220260222259222259221258223258223259222260222387222387221386000000000000000000000000223387222427220426221426222424222425224424224426222426222636222636221635221632222634222633224634224635223244222244222243222242223242224242224243224244223277223277222276223275223275223274223275000000223447221447000000000000000000000000223447223448223594221595221594222592223592225592224593223595224407223407223406223405224405224404224405224406225256225257225256224254225254226254225256225257225408224408224407223407225408225407225408225409225591224591223590223589224590225589225591225592225620224620224619224618224619226618225620227620225416225416225415225414227414227414226414226415226661224660224659226659226659226659226660227659228235226235226234227233228233228233228234229235227427226427227427227427228427229426229426229429227613226613226612226611226612227612228612227614227424227424227423227422228422228421229423230424227607227606226605226605228606228606228606229608229643227642228642228642229641230640230642229642229242228242229241229240230240231240230241230242230401229401229400229399229400231399231401231401229591229592229590229590229589229589230590230591230646228646229646228646229646231645230645230646231399229400230398230397230398231398231399231400232234230234231233231232232232233231233232233234232241230241231240230239231239233239233240233241231253231254231253231252231251231252233253231253231631230631231629231629231629232629233630232631232636231636231635231634232634233634233635233636231406231405232405232404233403234403233404233405))
 (.node 1 (.leaf 233637232637232636232635233635234635234636234637234395232395233395233394234394235394235395234395233413233414233413232411234412235412234412233413234634233634233633233632234632235633235633235634234252234253234252233250235250234251234252234253234591234591232590233589235589234590236591236591235635234635234634234633235633235634236634236634234657234658234658234656235656235657236657236657236241235242235241235240236239237239237240237241236613234614235612235612235612237611237611236614237241236242236241236240237240238240238241238241236646236646235645235644237645238645238645238647238234237234237234237233237233238233239234238235237618236620237618237617238617238618239618239620238652237652237651237649238649238649239651239652238402236403237401236400237401239402238402239402238593238594237592238592000000240592238593240594239605238605238603237603239603239603239604240605237607237607237606238605239605240605240606240606238615238615238614238614238613240614238615240617239624238624238623237623238621240622240623239625000000238231238230000000239229240229239229239230239657238657239657239656240655240655240656240657241258239257240257239257239256242256242257241257241622240622240621240621241621241621242621242622241648240648240648239648241648242648242648242648241411241411239411240409240410243410243410241412243225242225242224242224000000244223244225000000243593242593242592243592243591243591243593243593245225000000244225244223244224244223245225246225243635243635244635243635245635246634000000244636246245246245246244245243246243247243246245248246)
 (.leaf 246651246652246651246649246649247649247650248651248645247645248645248643248643248644249644249645250236250235250234250233250234251234251235251236250654250655249653249652250652250652251653252654251238000000250237250236251236252236251236252238251243251242251241250241251241252241252242252243251648250648250647249646250647251647251648251648255226000000000000254224255224256224256225256226258222257223258222259221259221260219259221260223267227265226265225266225267225000000000000267227269225000000269224269223271222271223270223271225273222000000272221272220273220273219000000000000280223278223278222279221279221280221280222000000280222279222279221279220280220282219281221000000084182084182084181085180085180085179085180085181091186090186089187090186090186091186091186092186013300000000000000000000013298014298014299015299015292014292014291014290015290016290015290016292016222014221014221016219016220017220000000000000000000016221016220016219017219019219017219018221017252000000000000016252017252017250017252017253016263016263016262016261016262017262017263017263016266016267016266016263016263017263017265017266016267016268016267016266016265017265017266017267016308000000000000000000017307018307018308019308017268016268016267016266017266018266018267018268017269016269016268016267017267018267018268018269017271016271016270016269017269018269018270018271017293016293016293016291017291018291018292018293000000017313017312017311018311018311019312019313019246019246019245019244019244019244019246019246018272017272017271017270018270019270019271019272))))))
 (.node 16 (.node 8 (.node 4 (.node 2 (.node 1 (.leaf 20273019273019272019271020271021271021272021273020274019274019273019272020272021272021273021274020275019275019274019273020273021273021274021275021270020270020269020268021268022268022269022270021298021299021298021297021296022297022297023299021308021308021307021306022306022305022306022307022276021276021275021274022274023274023275023276022277021277021276021275022275023275023276023277024229024229024229024228024227025227024228024230023278022278022277022276023276024276024277024278023279022279022278022277023277024277024278024279023280022280022279022278023278024278024279024280023281022281022280022279023279024279024280024281023281023283022281022280023280024280024281024281023285022285022284022283023283024282024284024284023290022291022291022289023289024288024290024290024316024315024314024313024314024314024314025316024294023296023294023293025294025293025295025295026314024314025313025312026312026311026312026313027564026564026563026562027562028562028563028566029556028556000000000000029554030552031555030556030251030251030250030249031249031249031250032251030570029572029571029570030568031568031569031572031266030266031265031265031264032264032265032266032249031249031248000000000000000000000000033249032257032257032256032255033255034256033256033257032263031263031262031261032261033261033262033263032305031305032303032303032303032302033304032304032571031569031568031567032569032568032570033571033262032262032261032260032260033260033261033263033551032549032548032547033549034547034550033549033589000000000000000000033587034587033589034591)
 (.leaf 35565033563034562034561034563034562035564035565035581034583034582034581035579036581035581036581036294036294035293035292036292036292037293036293037537035535035534035533036535037535037536037537036580034578035577034577036578037578036579036579036607035605035604034603036605037605037606036607037130036130036129036128037128000000000000000000037545037545035544035544037543038545037545038547037552037553036551036550038550038552038553038554037636000000000000000000000000037635037635038638036650036650036649036648036648037648038649038650039201037199038199038198038199000000039200039201038561037563037562037559037560039561039562038562038569037569037568037567038567038568039568039569038653037653036650036650038651038650040652039653040268039267039267039266040266041265041267041268000000000000000000000000039415039414039416040417039525000000038524039522039523039522039524039525039550038552038551038550038548040550039551040552038626037625038624038623039625039625040624039627040584039584039583040582040582041582041583042583040609040608040608038605040607040607041608041609000000000000038678038678040678041678040679040679041269041270041268041268041267042267042268042269042293041293041292041291041292041291042293042294040420000000000000040419041419042419042420042421041537040537041536040535040535042535042538041537041669040669041667041666041667042667042668041668041050041050041049042048042048042047043047042049042111000000000000041109042109043109042112042112042275042275042274042273042273043273043274044276041426000000040426041425042425043425044426042426))
 (.node 1 (.leaf 42648041646042646041646042646042646043647043648042705041707041704041703042703043703043704043705043040042042042041042040044039044038045040043040043106041107042107043105043104044104044107043107043267042267042266042265042266044265044266044267043535042535042534042533043533044535043535044535043547043548042548042545043545044545045546044549042625042625041624042623043623043623044624043625043667042667043665042663043665043664044664044667044081043081043080044080045079045079044081045083044262042262042262044261044260046261045261045262045277044276044276043274044274046275045277046278045284044284044283044282045283046283046283046284000000044516043515000000000000044515045517044517045559043560043557044558044558045558046559045560045569043570043569043566044568045568044568045568044581043581043580043579044579045579045580045581044598043598043595042594044596044596045597045598044607043607042607043607043606044606045606045607044628043628042627043626044626045626044626044628044632042633044632043630044630044631045631045632044645043645043644044642044643045641045644045645044693043693044692044692044691046691045694045695045042043042043042043040045040047040047041046042045169043170000000000000000000045168045169045171045261044261044260044259046260045259046260046261045407044407045405045405046405047405047405047407000000000000000000000000045441046441000000000000044581044582044581043579045580045579046579046580045607044607043607043606044606045606046606046607045667044667044664043664045665046665045666046665046218045218046218046218046216047218046218046218)
 (.leaf 46483045483046482046482047481047481046483047483046633044634045632045631046633047633046633047633046688046688046688045688046686047686047687046690047052046054046053046050048051048050049051048052047066046066046065047065047064048066047067047067047117047117047115045113047115049114049115049115047119046119047118047118048118048117048118048119048403046403046402047401047401048401048402049403048407047407047405047405048405000000000000000000047413047414047412046411046411049411048412049413047538047539045539046536048537048536048537048538048599046600047599046598047598048598049598048598047662046662046661047660047660048660048661047661047706047707047706046706047706048706049706048706048090047090048088047086048088049088048089048089000000048404048403047402048402049402000000000000047505047505047504000000047503049505048505049505048534046533047531048532048532048531049533048534049591047592047591048589048590049590049591049592048682047682047681046680047680049680049681049682049124048122048121048120049120051122050123049122049131048131047131048131049131050129051130050133000000000000048279049277049278000000000000000000049428048428048427048426049426050426050427050428049516048516047516048516049516049516049516050518049557048557048556049555050555051554051556050555050563049563049561048561049561051560050560050561049577049576049575048575049575050575050576050577048662048662048661047661049662050662049662049663049145049145049144048142050143051143051144052145000000000000049402049401050401051401000000000000050412049412049411049410050410050410051411050413)))
 (.node 2 (.node 1 (.leaf 49429049428050428051428051429000000049448049447048447049447051446051445051446050447050456048456049455050455050454051456051457050456051556049556050555049554050554051554051555052555050585049583050583050583050583051583052583051585049609049608048608050608050608051608051609051610050669050669049668050668050667050668051668051669051683049682049681049680049681051682050682051682050699049697050697049697050697052696050698052699051109050107049106050105051107052107052108052109051146050146049145050144051144051143053144053144051262050262051261050260051260053260053261053263052399050400051399050398051398053398053399052400050646050646050645051643051644051643052643052646052071051071051070051069051070054070052072052072052091051091052092051091052089053089054090052092051152051153051152050150052151052151053150052151052393052394051394052393053393054393053394053395052437050438051438000000000000052437052437052437052484051484051483052482052484053484053485053486052493051495051492051491052491052492053492052494052524051524051523050522051523053524052524052525053633051632051631052631052632053630053631053632053695052695051695052693052694054694054694054694052711051711050708050708052709053709052709052710052080051080052080052079053079055078053079054079053128052128053127053126053128054128055129055129052473052473053471052471053471054471054472053471053538053538052537051536053536054536055537054538053558052560052557051558052556053557055557053559054091052092054090053089054089055089055090054091000000053395053394054393055392055393055394000000)
 (.leaf 55047055047053048053046055045056045056046056047000000000000000000054394055394056394000000000000055582054582054581053579055580055579056579056582056059055059056059056058056059000000000000000000056090055090055089055088055088056090056090057090056111055111055110055109056109056109057110057111056140055140055139055138057139058138058139057140055154054154055154055153056153057153056153056155055158055159055158054156056157056157057156056158057421055421056419055419056417058419057420058421056465055465056464055465056463057463057464057467057562054562055562056560056559057561056561057561056659055659056657056657055656057657056657057659057070057071057071056070057070058068059070058070057394056394057392056392057392059391058393058394057431057431057431057431057429058429057431057432057521056521057520057520057519057520059521058523057591055590057589055588057589057589058590058591059164057164057163057162058162059160059161059164059170058170057169057168058168059168059169059170000000057172057171058170059170059170000000000000000000057415058413058413059412000000000000000000058507057507057506057505057505059507058507059507058631057631057630056630057630058630059630059631059206059206058205058204059204060204060205059206058395000000058394058393059393061393061394061395059472059471059471059470059470060470059470059472058539058539057539058539059539059538060540060541059562059563058561059561059560061560059561060562059637058639059637058635060636060635060636060639061107059105060106060104060105060105061104060106060115059115059114059113059113061113061114061115))
 (.node 1 (.leaf 60220059220059219059218060218061218061219061220061383059382060382060382000000000000000000061382060445058445058444059441059442061443060443062443060486059488060486060486060486061486061487062487060495058494060494059493060493061493060493061493060500059502058501058499059499062498060500060501060523059525059522060521060521061521061522062523060576059576059575058575060576061576060576061576060595060594059594060593059592061593062593061595060615060615060614060613060613062612060613062615062045060045061045060045062043000000000000062045061046060046060045061045061044000000062045062046061112059113059112060112060112061111062113062114061125060125059126060123061125061124061124062127061145061146061145061143061143062143061145062145061518059517059516060516061516062516061517062518062612060612060611060610060610062610061610061611062168061168061167062166062166063166063167063168062385062386062385062385062385064384062385062386061416000000000000000000062415062414062414063415062459062460061460062458063457062458063458062460062535062535062535062534062533064533064534062536061598060598060598061597062597062596063596062599062159062159062158063157064155064155064156064159062219062219062218062217063217064217065218064219063422061423062423062420063422064422063423063423063473062473062472063472063471064473063473064473063489063489062488062487063487064487064488065489063633063634062632061632064632064631064632064633064097064097063098062095065096066096065096066098064228063228062227062226063226064226064227064229065129063131063129064129065127066129065129067131)
 (.leaf 66450064450065450065450066449067449066451066452065552064552064551064550064550066550066551065553065576064576063577064576064575066576065576066576066434065434065433065432066432066432066432068433066558064559065557065556065557067558066558067558066622064621064620064620066620067620066621067622067116066116066115066114067114068112067114068116067447066447067445067445067445068445067446067446067491066491066490066489067489067489068490068491066571066573065572066571067571068571067571067571067684065683066681067681067682068682067682000000067174066174066174067173068173069173069174069175068207067207067206000000000000069205069206069207068473068473068473068471068471070472069472069473068514067514068513068513068512070513070514070515068540066541066540067540068538069540069541069542067603066602067603067602068602068601068602068604069177068175067175067174069175069174069176069177069210068210068209068208069208069208071209070210068223068222067221068222069222070220070221069223069417068417068416068415068416071416070418069418069532067532067532068530068531069530070531070532071103069103070103069101071102071101071102071103070133070133069132069131069131070131070131071131069437070438069437069436070436071436072437070437070453069455069452068452070453071453070453070453070514070515070514070513000000071512071513072514072136069134069134070134071134071134071134072136071144070144070143070142071142073141071142071143071408069408070407069406070408071408072407072408071472070472070471069471070471072472071472072472071489070489070488071486071487072487071487072489))))
 (.node 4 (.node 2 (.node 1 (.leaf 70616070615071615071615072614073613072614073616071114071114072114071114072114073114074115073114072180071180071179070177072178072178072178072179072185071185070185071185071185073185072185073187072211071211071210071209072209072210073210073211000000000000000000000000000000073374072376073376073422072421072420072419073419074420074420074421072512071512071511071510000000073510073511000000072526072527072526072525072524072524073525073526072544072544071543071542072542072543073543073544072566071566070563071564072564073564074565073566072589071591070590071589072589072588073590072591000000000000000000072195073195074195000000000000073234072232071231073232073232074230075232073233074143074143073142074141000000074140075142076142074159073159074158073157074157075157075158074158074392073392073391074390074390076390076391074393074403073403074402074402075401075401074403075403074532073532073531072530075530075530075531074533074636073636072634072633074632074634076633074636075166074166074165074164074164075165075165076166074188074188073187073185075186076186076187076188075208074208074207075207075206076206077207076208075417074417075415075415075415075415075415075417075548075549074549075546075548076546076547076548075620074620075619074618076618076618076619076620075371074371075370075369076369077369077372076371076384075384074384074383075383076383077383076384076390076390075389074389075389076388076389076390076403075403074403075401075402077403076403077403076497076499076496076496076495077495077496077499075532075531075530075529075530076529076531076531)
 (.leaf 76590074590076587076587076588078587077589077590078136077136000000077134077135079135078136078137077184077184075183076182077182078182078183078184000000000000000000075197077198077198077198078200077209077210076208077207077207078207078208078209077427077427076426076425077425079426078426079428078439076438077438076438077438078438078439079440077467076467076466077465077465077465078466077467077475076477076474076473077473078473079474078475077551077552076550076549076550077551077551077552079157077157077156077155078155079155079156080157078188076188076187077186078186079186078187079188078443077443078443077443079441079441079444080444078547076548077548077547079545079545079546079547078576078577077575077574078574079574080575079576080125079126079124079122080123081124081124081124079171078173079170077169079169079170081170081171079204077204078203077202078203080202080205079205000000000000079240079238000000000000000000000000079502078502078501078500079500079501079501079502078588079587078587077586079586079586081586079588078591078591077591078591079591080591079591080591080621079621079621078619080619080619081620080621080138079138080136079136080136081136082137081138081447079446080446080444081446082444081447082447080575080575079574079573080573080573081574081577081126080128081125081124081124082124083126081126000000081224081223081222000000000000000000000000081361000000000000000000000000081360081361081362081485081485081484081484082484083484083485083486081564081564079563080562081562081561082563082564081596079598080597080596000000081595081595082598))
 (.node 1 (.leaf 83144081144081143082141082142083142083143083144082158080160081159081158082158083158082158082158082171081171081170080170081170083169083170082172081376080376081376082373082373083375082375082375083387081388080386081384082386083386082386083388083440082439082438082438082438084437082439083440082465081465081464000000000000084464000000083465082569080569081568081567082567082566083568082569083126081126083126082124082125084124084125085126083218083217082215083216082215085215083217083217084417083416083415083415084414085415085415085417083500082500083500083499083498084498084499085501083545082545083543082543083543083543084544083544083608083609083608083608084607085607085607084608084139084139083138083137084137085137084137084138084183084183084182083181084181084181084182084182084363082364082364084361085361085361085362085363084401084402084402083401085400086400086401086402084531084532084531084530084529084529084531084532084550083550083549082548084548085548084549084551084569082570083568082569083568085567085568084570084584084584082582083582085581084582084582086583084595082596082595083595084595084594084595084595085201084201084200085201085201087199087202085202086423085424085423085423086422000000000000000000085166085166084166085166086166086166086166087166086468086468085467085466086466087466087467087468086514086514085513086512086512086513086514086515086535085535084534000000086535088533087534087535087396086396086395086394087394089393088395088396087401086401086400087400088400089400089400089401087467086467086466000000000000088465089466088467)
 (.leaf 87128087127087126087125087125088126088127089127087145087146087145087144087144089144088144088144089227088227088226088226089226090226000000000000089417088417088416088414089415089416089417089418088627086628086627087627088627088626089626088628090173088174089173089172089172089172090173090174089384089384089383089381089382089382090383090384089397088397088396088395089395089395089396089396090453089453089452088451089451090451090452090453089466089466088465000000000000090464090467089467089531088531000000088531088531089530089530089532089610089609089609088608089608089607089608089609091159089159089158089157090157091157091158091159089358090359000000000000000000000000090357090358090369090369090369088368091369091369092369091369090438090438088437088436089436000000091437090439089613089612089611088611090610090611090612091612091486090486090485090484091484091484091485091486091126091125090125091125091125093125092125092126093165091166092164092164092164094164094165094166092454000000091453091452093452093452092452093454092521092522092521092519092519092520094521093523093508092508092507091506092507093507093508093509092604092604092603092602093602093602094603094604094132094132094131094131094130094131094132094133094162093162094161093160094160095160096161095162095153093152095152093150095151095150096152096153095536094536094535094532095534096532096533096534096475095475096474096474000000096474096474097475000000097216097215097215000000000000000000000000097347096347097347097346097345097345097346097348000000096361097360097360097361097360000000000000)))
 (.node 2 (.node 1 (.leaf 97421097421097422097507096507096506096505098505098505098506098507098520097521097520096519097519099518099520099521098156097156097155097154098154098153099155099156099177098177098177097176098176099176100177100177098454098453098453097452098452099450099453099454099596098596098595097595099593100594100595099597098610097610098611097608099609099608100611100611099140098142098141099139099140100140101139099140099164097164098163098162099162100162101163100164099490098490098489098488100489100488101490100490099547099548099546099545099545099546099547099548099561097560098560097558099559099558100558099561099180099179100179100179100179101179102179101179101207099209100207100207100207102207000000102207100347100348100346098346100345100345101346102347100527099527099526099525100525100525101526100527101594100593100593100592101591102592101593101594101197101197101197101196102195102195101196103197101427099428099428099427100426000000102426101427101482100482100481100480101480102480101481101483100531100531100530100529100529101529101530101531102116101116102116102115103116000000000000103116101166101166102165101164102164103164104165103166103184102185102184102184103183104183104183104185102346101346100345102346103345103344103345103346102438102439102438102437102436103438104437103440102454101454101453102451102452104450104451103452101534101534100533100532101532102532102532102533103157102157102156103155103155104155103155104157103501102501102500102499104500104499104500103502102516101515102515101513102513103514103515103516)
 (.leaf 102593102593102592102591103591104591103592103593105498104497104496104496105496105495105496105497103522102521102521102520103520104520104520104521105347104347105347105346000000000000000000107347105468105468000000000000000000106466106467106468105484103485103483103482104482105482105484105484107163106163105162106161107161107161108162107163107185104185104183105182105183106183106183106184105459000000106457105457105455107455108457108459106550106551105549000000105549106550106550106551105593104592105592104591106591106590106592106593000000000000000000000000000000000000108359107360108158106158106156107156108156108155108156109158109447108446108446108446109445110446110447110447108582107582108582107580109580109580109581109584110472107473109472109471110472110472000000110472110148110148111146110146111146113145112145113147112164111163111163111161111162112162111163112164112187111187111187110185112186112185113187112187111483109484110482109482111481112481112482113484111504111503110501111501111502112502111503113503112552111550111550111550110549113549112551112552110578110579111578110577111577113576113578113579111598111597111596111595111596113596112597112598113564111562110561110561112562114561112562113564113135113135113135113134113133113133113135113135113164112164111163112162113162114162114163115164113516000000111516111514000000113514000000113517000000114152114151113151114151115151116152115151114582113582114580114579114580115580114581115582114594114594113593114591114592115592114592114593115186115187115186115185116185117184117186117186))
 (.node 1 (.leaf 114374113374113373113372114372115372115373115374116457115457115456114456116454117454116455117457115490114490115490115489116489116488117489117490115504113504113503114502116503117503117504117504116507115507114506115505116505117505117506117507115371114371114371115370116370116370116370116371115372114372114371114371115370116370116371116372116376114377114376114375115375116375117375116376117483115483116483116482117482000000117482117483116515116517114514116514116513117513118515118515118163117162116162117161117161118161118162118163118458115457117457116455118456119456119457118457117490117490117489116488117488118488118489117490118551116550117550117549117550117549118551118552118562117561117561117560117560117559119561118562118573116574117572117572117572119571119572119573118504118504118503118503119502120502120503119504120190119189119189119188000000000000000000000000000000119477119476118476119476121475119477119477118555118557118554119555120555121555121556121557120566119565119564118564119564121562121564120566000000120172120170120169120170000000000000000000119402119401119400119399120399120399120401120402120446118448118447118446119445120445120446120447121344121344121344121343122343122342122343123345122358121357120358121357121357123356122358123358121361121361120360121360122359123359122360122361121414119415000000120414120414122414121414121414121533120533000000120529121531123530000000122533122505122505121504121503122503122504122505123505122582120582121581122579122580123580122580124581122592121592122592122591123591123591123591123592)
 (.leaf 125141123140124140124140124138000000126140126140124373124373122373122372000000124372124373125373124389123389123386124386124387125387125388125389125519124519124519124517124518125518126519126520124578122578122576122576124576124575125577125578124586123586123585122585123585124586124586124586125458000000124457124456125456126456125456126458126495125496125495124495126494126495127495127496126517125517125515124515125515126515126516126517126344126344126344124343000000128342127343127344125386125386125385124384126384126384127385127386125409124409124408124407126406126406126408126409125449124450125449126448126448127448126448127448126525125525126524126523127523128523127524127525127516126516126515126514128513127514127514128516129354128355128354127354129353130354130354130354129534127532128532128532129532129532129533129534129418129418129418128418129418129417129418129418000000000000129491128491000000000000000000000000129530128529128528128528130528130528131527130529130549130549129550130547131548131549132549132550131554129554130554129554131553131552131553131554129572129573130572130570130571131571132572132572130397129398129397130396131396132396131397131397131457130457130456131455131455131454132456132457131502130502131502131501131500131501133502133502132361130362130361130359131360132360133360132362132404131404130404130403132404133404132404132405132340132340000000132340133340134340133340134340133460133460132459133458133458134458133458134460132542132541133541133540134541135540000000000000135380133380134378134378135378135378136379136379)))))
 (.node 8 (.node 4 (.node 2 (.node 1 (.leaf 133419133419133418134417134417134416134417134418134516133516134516132515134514134515135515136518134579132578132578133575134577134577136576136577135362135362134361135360135360135361137361136362136570135570135569135568136567137568137568137570137152135153137152136150136150138150138153137152137507136507136506136505137505138505138506139509138570137570137568137568138567138568139569138570139450137450137449138448138448138448138448139450138529138528138527138526138527138527138527138528138532137532138530137530139530140529139531139532140328139328139328000000000000000000141327141328000000138467138466138463139465139465139466139466141373140372140372140371141371142371142372142373000000138471138469138468140469140469140469140470142354141353141353141353141353141352142354143354143157142157142155142155142156144155143155142156000000000000000000000000000000142174142175142176142329141329142329142328142327143327142328142329141457140456141456141455141455142455142455142456142518142518142517142516142516142515143515143518142175000000000000000000000000144174143174143174143356142356143356142354144354144354145357145357144387142387143385142385143385145383145384144387143391143391142388143388143389144389144390145390000000000000000000000000143436143435144437000000144413143411144411144411144411145411145412145413145413144413144412144411145411145411145411145412146360146361146360146359147359147360148360148360145420144421000000145419146419146419146419146420147515145514145513146513146514147514147515147516147432145433000000000000147430147431147432148432)
 (.leaf 149366148367148366148365149366149366150366149366147397147396146396146395147395148396148396148396147458147458148457146455148456148456148456148457149516147518147517147516148516150515150517150517148560148560148560148560149560150560150560150560150384149384149383149383149383151383151384150385151434150434149434150432151432152432152433151435153330151330151329151328153328154328152330153330152338152339150338150337151337153336152338153338153347151346151345152345153345153345153345154347154369152368153368153367154367155367155368154368152372152371153371153370153369154369153370153372154398152397151396152395154395154395153397154397153348153349152347153347154347154346154347155347154384152384152383152382154382154381154383155384157403156402156401154400156400157400158402158403157443156443156442157441157441157441158442157443159355157356158354158354158354159354160354159356158358158359158358158358159358159358160358159358158519157519158517158516158517160517160518000000160417159417159416159415159416160416161417160418161385160385159383160383161382160383160384161384160391158391159390158390160389160390160391160392160416159416159415159414160414161414162414161416160435160435159434159433159434160434160435160436162372160371161371161369162370162371162372163373161401161401161400161399161399161400161401161402161396160395160395160394162395162394162395162396161418161419161418161417162417162416162418162418161420161421161420161419161418162418162419163421164225163224163224162223163223164223164224164225163426162426161425161424162425163425163426163426))
 (.node 1 (.leaf 164454162455162454162453163453165452164454165454000000162460163458163458163458165457164459000000165235162235162235163234164234165234164234165236165352165352165352165351166351166350167352167352165210165210164209164207166206167206166208167210165225165226165225165224166224167224167225166225166211166212165211165210167210168208167210168210167223166223166222166221167221168221168222168223168350167350167349166349168349169348169349169350168446167446167445167444167445168445168446168447167243166243166242168241167242169242168242169244000000000000000000000000167244168244168245168246169347168347168346167346169345169344170346170347169432167431168431166429169431170430169432170432170444169443169442168442168441171441170443171443171404170405170403170402171401171401171402171403170406170407169405170405171405171404171405171406000000171345171344000000000000000000000000000000171382170382171382170380172380173380172381172382172225172225170224170224171224172224172224173225172412171412171411172410172410173410172412173412171444171444172442172442172442174442174442173444173224172224172223172222173222174222173222174224174221172220172220173219174219175219174220175221173240174238174238173238175238176237176237174240176390175390175389175388175389177387175389176391176393174394175392174392175392176392177392177393176413176414176413176412176411177411177412177413177398176398177397177396178396178396178397177398177421175422176422176419177421177420177421177422178223177223177222178221178221179221179222179223179227176227178226178225179225180225179227180228)
 (.leaf 179445177445178443178443178443179443179444180445179441178441179439178439179439180439181439180441180383180384179382180381180381181381180383180384180401178401179400179399180399181399180400180401180578179578000000000000000000000000000000181578181216181215180215181214182214183213183214183216182220181220181219180219182219182219182220183221181257180257181254181254181255183254182256182257000000000000000000181594181594000000000000000000183442181442181441182439182440183440184440184442183264181265181264000000182262183263183264183265000000000000000000000000000000183634183635184635185213183213184212184211184211186210185212186213184216184216183215184214185214186213185215184216185271000000000000184270186270187270186270186271186401184402185400185399186399186399186401188402000000000000000000185440186440000000000000000000186589185589186589186588000000000000000000000000187227185227185226185224187225187224187225187227188221187221188220187219188219188219188219189221187273187272186272186271187271188272188272189272187648000000000000188646188647188646188647188648188242187242187242187241188240190241189241189243188395187395187394187394188393189393189394189395188398187398188396187395188396189396189397189398190419190420190418190418191419191417191418190419190252189251189251190251190251191250191251192251190402190402189400189399191400191400192401191401190408189408189407189406190406191406191407192407191413189412190410189409191411192411191411192413191203191205191202190202191202193201192203192204192208191207191207193207194206193207193207194209)))
 (.node 2 (.node 1 (.leaf 193220192220192219191218193218193218193219194220192274191273191272191271193272193271193273193273193220193221193220193219193219194219194219195221193273192274193273193272193271194271194272194273193394192395192394192393193393194394194394194395193406192407193404192404194403194404194405194406195238193239193239193237194237195236195238195239195413193414194414193412196412196413195413195413195435193434195433195433195433196433196434196435195645195644195642195642195643196641196644196645197238195236195236195235196234197235197236197237198225197225196224198222198223198222198224198225199392197393198391198390199390199391199392200392199406198405199403198403199403201404200404200405201213199214200212200211200211201212201213202213201243200243199243199243200243201242201242201244201248200248199248199246201248201248201248202248201253200253200253201253201253202253202253202253202438202437202436202435202436202435202437202437203211201212202212202211204210204211203211204211202262202262201263202260202260203262203262203262203419203419203419203418203417204417204418204419202437202438202437202436202435204436203436204438203225203225202224203223204223204222204223204225205228203227203226203225205226205226206227205227206235206235206235205233205234206233206235206236207407206406205405206405206406208406208406208407206423206423206423204423207422208421206423206424206429204430206429205429206429207429208430208430000000000000205441205440206440206440207441000000206620205620000000000000000000000000206620206620206258205257206257205255206254208256207256207257)
 (.leaf 206258206258205258205257206258207257207258207259208406207406206406206405207405208405209405209406211412210411209412209409210411211409211412211413210619209619000000000000000000210618210620210620000000000000210282209281211281211281212282000000213270213270212269211270212269213269213270214270213389213390213389212389213389214387214388215391214396213396213395213394214394214393215396215397214405212406213404212404214404214404214405214406215223212222214222213222214222214221215223215224214237214238214236213235213235214236214237214237215400213401213400214399215398215399215400215401216608214607000000000000215607215607215607215607216244216244216244214243215243217244218245218245215401215401215400215399215398217397216399217401216235215234215233216233217233217233218234218235217260217261217260217259218258218258217259218260216626215626215626216625216625217624217625218625218623217623217622217621218621219621218621218623217642216642216641216639217639218640219642218641219606219607218605218604219604219605219606220606219614219615218615218612220614220614000000220614220264218264220264220263220262220262220263221264221405219404220404218403219404221404221405220406220654000000219655218654221654221654220654220654223235222235222233222232222233224233223234224234223244222244221244221243222243223243223244224244222259222259222259221257221258222257223258223259221447220448000000000000000000000000222447223447221594000000000000000000221592222591223592222593223636222636222636221635222635224634224635224637224244223244222244222243223243224243224244225244))
 (.node 1 (.leaf 222278223277222276223276223275000000000000222427222428222427223426224426225425225426225427223407222407223407223406224406224405224406225408224408223408222408222407223407225408224408225408223590222591000000000000000000224589224590224590225255225256224254225253225253226253226254225256225619224619224618224617224617226617226618225620225416224417225416225415226415226414226415226415226612226612226612225610225610226611226612226612227236227236226235226234227234228234229235228236227606225607226605000000226605228606227606227607227659226661227659226659226659228659227659227659229425228425227424227423228423229423230424230425229429227427228427228427229426229427230427000000230642229641229641228639230640231640231640230641231243229243229242230241230241232241232242232243231401230401230400229400231399231400232400232401230591229591230591229589229589231589231590231591230645230645229646230644231644232644231644231645231252231253231252230250231250232250231252233253232400231401231399231399231399232399233400232401232632231632230631231629231630233630232631232632233234232234232232232232233231234231234232234233233242232242232241232240233240234240234241234242232404232405232404231404233403233402234403233404233636232636232635232634233634234634234635234636234637233637233636233635234635235635235636235636234251234252233250233249235250235249234251234252234395234395234395234394235394236394236394236395234412234412234412234410235411235410235411234413234590232590233589232589235588235588234590236591235634234634234633234632235633235633235634236634)
 (.leaf 236657234657235657235656235657237656236656236657237241236241236240236239237239238238238240238241236614236613236612235612237611238611238612238613238647236646237646237645238645239644238645238646238235238234238233237233238233239233240233240234238401237401236400236400237401238400239402238402238592237592238592237590238590239590240592238593239606237606238605238603238604239604240605240606238614238614238614238613238612238612240614238615239620237618238618238617238618239618240618240620239626237626238624238623238624240623239625239626239652238652238651238649238649240650239650240651238231000000238231238230239230239229239230240232240608237607237607239606240606240606241606240608239656239657239656239654240654240654240655240656240622240623240622240621240622242621242622242622241257241258241257239256242256243256242256000000241410239411240409239409240409241409243410243410242648241648241648241648242648243646242647242648000000243225243224000000244223244224244225245225243592242592243592242590000000000000243591243593244636243635245635245635246634000000000000246635246244246244245243246243247243000000247243246245247650247650246649246648248649248648248649247650250655247654248653248652249652250652249654250654250237250236250235250234250235251235251236251237250647249647249646249645249645250646250647250647000000250239000000250237251237251236252238251239251244251244251242251241251242252242252243252244256226255226256224255224256224257224258225000000258224257224257223257222258222258222258222259224266228266228265226265225267226000000267227269228))))
 (.node 4 (.node 2 (.node 1 (.leaf 270226269226000000269224270224270223271225000000273223000000000000272221273221000000000000274223279224278224278223278222279222280222000000000000000000280223279222279221280221281221000000000000070578069578070578069576070578072576071577071578090186088188089187089186090186090186090186091186181426180426181425181424182424183424183425182425013301000000000000000000013299014299015299015300015293015293014292014291015291015290016292015292016223015223014221014221016221000000000000000000000000000000000000000000016252017252016252017252016263000000000000000000016261016262016263016263016267000000000000000000016263016263016265016266000000016222016221016220017220017219018221018222016268000000016268016267016266017266017267017268016269000000000000016268016267017267017268017269016271000000000000000000016269017269017270017271016293016294015292016292016291017291017292017293018309000000000000000000017308018308019308019309017272016272016271016270017270018270018271018272019245019245019244019243019243019244019244019246019273018273018272018271019271020271020272020273019274018274018273018272019272020272020273020274019275018275018274018273019273020273020274020275020270019270019269019268020268021268021269021270021276020276020275020274021274022274022275022276021277020277020276020275021275022275022276022277021308021309021308021307022307022306022307022308022278021278021277021276022276023276023277023278022279021279021278021277022277023277023278023279022280021280021279021278022278023278023279023280022281021281021280021279022279023279023280023281)
 (.leaf 23283021282021281021280022280023280023281023281022285021284021284022284022283023283023284023285022291021292021290021290022289023289023290023290024228024229024228022227000000000000025227024228023296022295023295023294023293025294024294024294000000024316024315024314024315024314025316025317026315024314024314025313026313026312026313026314027563026563026562000000026561028561028562028563029557028557028556000000029555031555030556030557030569029571029570030568030567031567031568031569031250031250031249031248031248032248032249032250031265031265031265031263031263032263032264032265032248031248000000000000000000000000000000000000032262031262031261032261032260032260033261033262033306031306031305032303032304033304032304000000032572031572031569031568032570032570033571000000033261032261032260033260033259033259033260033261032551032552032549032548033550034550033549034550033588000000000000000000000000034586034587033589034564033566033563034562034564035564035565035566035580034582034581034580034578036580036581035581036295035295036294035293036293037293036293037295035538035536035535035534036536037536037537037538035606035606035605035604036606037606036607036608000000000000000000035649036649036649036650036650037129036129036128037127037127000000000000000000037544035544035544035544037542038544038545037545037551036551036550036549038550038551038552038553037562036562036561036560037558038558037560037560039201037200037199038199038200039200039201000000000000000000000000037524038524038524039525000000038568037568037567037566038566038566038568039568))
 (.node 1 (.leaf 38626000000037627037624038624038626038626038627038654037654037653036650038652040652039653039654000000000000000000000000039416039416040417040418039549038551038550038549038548040549040550039551000000000000000000000000038678039679000000000000041267040266040266040265041265042264042266041266000000000000000000000000000000040420040420040422040585039585039584039583040583041583042583042583040610038609040608040608040608041608041609040609041051039050040050040049041049041049041050042049041268041268041268041267041266042266042267042268000000000000000000000000040426041426041426042426041536041536040535039535041534042534042535042538042110000000041109000000042108043108043109042112042274042274042273042272042272043272043273043274042294042293042292041292041291044291043293043294042649041647041646042646042647043647043648043649042704041704041703041702042702043702043703043704043039042041042040041038044037044037044038045040043105042107043105042103043103044103044104044107043534042534042533042532043532044532044535043535043546042548042545042544044544044544044545045546042570042569042568042567043569043569045569044571043581042581042580042579043579044579043579044581043626042626042625041624043624044624043625044626042667042668042667043665043666044664044667044668044080043080044080043080044080045078045079044081044261042262044261044260044259046260046261045261044599043599043598043595044597045597045598045599044629044629043628042627044627044626044628045629043646042646043645043644044644045644045645044646044692044692044692043690044690044691046691045694)
 (.leaf 45041043042043040045040046039047040047040047041046278045278045277045277045277047276046278046279046284045284045283045283046283047283047283047284046407045407044407045405045406047405047407047407000000000000000000000000045442000000000000000000045561045561045559045559046559047559046560046561045581044583044582044581045581046579046580046581044634044633044632044631045631046633045633046633046217046218046218045215046215047217047218046218046261045261046261046260045259048260046261047261046687046688045688045685046685046686047686047687047051046053046050046049047049048049048050049051047118047118047117047115047116049115049115048116048404046404046403046402047402048402049403000000047412047412046411047411047410048410049411048412046483047482047481047481047480048480047483047483047537045539046536046535047535048535048536048537047599047601046600047599047599049598048598048599048091047091047090048088048089048089048089048090048131047131046130046130048131049131048131049131000000048408048407048406000000000000000000000000048504047504000000000000047503048503049505048505048516047516046515047516048516049516048516049516047534046533046533047531048533049533048534049535048681047681046680047679048679048679049680049681048706047706048706047706048706049706049707050707048124048123048122048121049123050123049122050123000000000000000000049403000000000000000000000000049429048429048428048427049427050427050428050429050558049558048557048556049556051556050555050558049562049563049563049561049562050560050561050562049578049578049576049575049576050576050577050578)))
 (.node 2 (.node 1 (.leaf 50146049146049145049144050144051144052145051146000000000000000000049402050402000000000000000000050411049411049410000000000000051409050410051411000000000000000000049429050429051429000000000000050446048447049447049446050446051444051445051446050455049455050455049453050453051453051456051457050586049586049583050583050584052583051585052585050681049681049680048679050681051681051682050682050700050700049697050697050698050698052699051700051110050108050107049106051108052108052109051110051154050154051152049150051152051152051152052154051261051261050260050259051259053260053260053261051523049524049523049522051523052521051523051523052555051556051554050554051554052552052553052554051645049646050646050645051645052643052646051645052070051070051069051068051069054069054070052072052090052092051091051090052088054088053089054090052147051147051146052145053144054143053146052146000000051401052399052399053399000000000000000000052436051438000000000000000000053436052437052437052492051492051491050491051491052491052492053492052695052696052695051695052695054694054694053695051712051712051711050708052710052709052710052711054395053396052393053394053394054394000000000000052473052474052473053471053472054472053471054472053487052487052484053485053485054483054484054487053557052557051558052555053557054557053557055557053633052633053633053633053631054631054632054633054090054090053089054088054088055088055089055090055129054127053128054127054127056125055128055129000000054395053395053394054394055394000000000000054538053538054538053536054536054537055537055538)
 (.leaf 55156053156054155055154055154055154055154055155055159053157053157053156054156056157055157055158054582053582054582054581055581056579056582055582056047055047056047055045056045056045057046056047056089055089055088055087055088056087056090056090056139055139055138055137057138057137058138058139056418056419055419056417056416058418058419057420056464056464055465055464056462056463057463057464056560055562056560056558056558056558057561056561055660055660055659056657056658056657057659056659000000057058056059056058000000000000000000000000057111056111057109056109056109058109059110059111000000000000056394057392057393058393058394000000057430057431057431056430058428058428058429057431057520057520057520056518057518058518057520059521058592057591055590057589057590058590058591058592058070057070058070057070058068000000000000000000058165058165057164057163058163059161059164059165058171057171058170057169058169059169059170000000000000000000057172057171058171000000000000000000059205058205058204000000000000000000060204060205059396000000000000058394059394061394061395061396000000000000059413059412000000000000000000000000060472059471059471059471059471059470059472060473059561058561059561058561059559061560061560059561059576057577058575057575058575060576059576060576061107060107059105060106060106061104060106061108060114059114059113058113059113061112061113061114060125059127059124058124060123061125060125061125000000000000059220059219060219061219061220000000059446059446058445058444060444060443062443060444060496059496058494060494060494060493061493061496))
 (.node 1 (.leaf 60522059522060521060520061520061520061521061522060616060616060615060614060614060613062615060615060639059637060637060636060635062636062636061637061044061045060045060044061044000000000000000000061144061145061143060142061142061143062143061145000000061381000000000000000000000000000000000000060416000000000000000000000000061416061416062416062487060486061486060486061486063485062487062488062519059517059517059516061517061517062518062519061600060600060599059598060598061598061598061599062612060613060612060611061611061610061611062613062045062045061044062043000000000000000000063045062169061169061168061167062167063167063168063169061423060424061423060421062420063422062422063422062458061460062458061458062458063456062458063458062534062535062534061532062532062533064533064534062220062220062219062218063218065218064219064220063228062228000000000000062226063226063228064228062385063384062385063383000000000000064383065384063632062632061632062630063630064630064631064632064096063098062095063096064096065094066096065096063131062131063130063129064129065127064129065129064156064156064155064155065155066155065155065158065489063490063489064488064488066488065489065490065551064551064550064549065549065549066550066551065557063557065556064555065555066555065557065557065621063622064622064621064620065621066622065622065435065435065434065433066433066432068433066434066452066450066450066449067449067450067451067452067117067117066116066115067115067114068116067117066492065492066491066490067490068490068491067492066573065573066573065572067572067571067571069573)
 (.leaf 66685065683066681067683067682000000000000068175066176067174066174067174069175068175069177068206067206000000000000000000069204069205069206067223067223067222066222067221068223068223068223068417067417066417066417068415068416068417069417068513068513068513068512068511070511070513070514068539066540067540066538067539068538069540069541068605066603066602067603068603068602068604069605069134068134067132068132069132069132070133070134069209068209068208068207069207070207069208071209069452068454067452068452068452070452070453069452069473068473069473068471070472070471070472070473069531067532068530068529069529070531069530070531069408069408070407070407069406070408070408071408070439070438070438069437070437072437070437071439070513070514070513070511070511071511071512071513071102071102071102070102071100000000000000072102071137070135069134069134071135071134072136072137070144069144070144070143071143071142071143071144071180069180070179070178070177072178071178072180071185070187070186069183071185071185071185072185070489069490070489070488071488071487072489071489071566070566069564070564071564072564071564072566071577071577070578070575071577073575072576073577071592069591069591070590070590071590072589071592072210071210071209071208072208073208072210073210072511071511071510000000072509072510073510073511072614072614072614071614073613073614074615074615073114071114073114072114073114074114074115075115073235072233072232071231073233075232073233074235074421073422073420073419074420074420075420074422075144074143074143073142074142075142076142075144))))))))
 (.node 64 (.node 32 (.node 16 (.node 8 (.node 4 (.node 2 (.node 1 (.leaf 74160073160073159074158074158075158074158075160074391073391074390073389074389075389076390076391074402074402074402073402075401075400075401074403074531073531072530073531075529075529075530075531074637072636073636072634074635076633074636075637074188073188074188073187075187076187076188077189075207074207075207073206075205076205076206077207075418075417074417075415075416075415075417076418075531074531075530075529075529075530075531075532075619075619074618075618076618076617076618076619075185075185075184075183075183076183077184077185076370075370075369075368076368077368077369077372076383074384074383075381076383077383076383077383076389075389074389075387075388076387076388076389076402074403075401075400076402076402077403076403076496076496076496075494076494077494077495077496076550074550075549075548076548076548076550076550076591074590074590076587076589077589077590076591076188077189076188076187076187077187078188078189077208076208077207076206077206078206078207078208077426076426076425077424077424079425079426078426077474076474076473076472077472078472078473079474078138078137078136078136078136079136080136079138079157078157077157077156078156079156080157080158077204077204077203077202077202078203078204079204078439078440078439078439078439079439079440080441078502077502077501077500078500079500078502079502078575077575077574076574077574079573079574080575080444078443079443079441079441080443080444080445079546079546079545079545000000079545079545079546079574078574077574077573078573080572080573079574080589078589079587078587079587081586079588080589)
 (.leaf 79620079621078619078618079618081619080619081620081124080123080123078122081122081123082123082124080128078127080126080125081124081124080126081126079138078139079138080136080137082137081138000000000000000000000000000000000000000000000000080360080597079597079596079595081595081595000000080595080160080160080159081158081158082158081158082158081565080565081564079563081563082563082564081564082170081170080170081170081169083168083169083170081378080376080376081376082376082375082375082378081388080388081388080386082387082386083388083389083440081441082439082438082439082439083440083441082464081464000000082463083463084463084464000000083485082484082484082483082484083484083485083486081570082569080569081568082568083568082569083568083125083126082124082123083123084123084124084125083145083145083144083143083143084143084144084145083219083218083217082215083217083217083217084219084417082418083416083415083416085415085417085418083499083500083499083498084498084497084498084499083568081570082569082568083568083568083568083568082596081595081595081595083595084595083595084595084140082140084139083138084138084137084138084140084184084184084183084182084182084182084182084183084362082364084361083360084360085360085361085362084530084531084530083528084528084529084529084531084546083546083545084544084544085544084544084544084549083549082548083547083547000000085548084549084585084584084584082582084583084582086583084584084608083608084608084607085607086607085607085608085166084166083165083165085166086166085166085166086401085400085400085400085400086400087400086400))
 (.node 1 (.leaf 84534084534084533084532085534086534086535085534085202085201086201085201087199087199087202087203000000086423086423086422000000000000000000000000086467085467085466086466000000000000087466087467086513085513086512086511086511086512086513086514087147087146087146085144087145087145087145087147087466086466000000000000000000000000088465089466086628085628086628085626087627088627087627088627089227088227088227088226088227000000000000000000088396087396088394087394089393089394089395089396090174089174088174089173089173090173090174091175088188088189088188089186089187089187090186090187090359088358088357000000000000000000089358089358090397089398088397088396089396089396089396090398000000089454089453089452089452090452090453000000089465088465000000000000000000089464090464090467089530000000088531088530089530090528089530089530000000000000089384090383090383090382090384000000090437088437088436089435089435000000000000091437090611089611088611088611089609090611090611090612091369090369091369091369091369093368093369092369091485090485090484090483090483091483091484091485000000000000000000091453092453092452093454092454092507091507091506091505092505093507092507092507092520092521092519092519092518093518092520094521094166093165093164092164094164094164094165094166092605092605092604092603093603094603094604095605094131094131094131093131094129094130094131094132094163094163093162094161094161096161095162095163096154095154095153096152096152097152097153097154096474096474096474095474095473097474096474096474096507096508095508095507096505098505096507097507)
 (.leaf 96534095536096534095534096532097534098535098535097346097347097346097345097344097345097345097346097522097521097521097520097520099520099521098522000000000000098361097361097360000000000000000000099455097453098453098453098453099453099454099455097560096561096560096558097558099559098559099561099596096598098596098595098596100595099597100597099489098489098488000000099487100487100488101490099528098528098527098526099526099526100527100528099546099546099545099545099544099545099546099547100611099609099609099608100608000000000000000000099140099140100140099140100140102139100140102141101165099165099164100163101163101163101164102165100346100346098346099344100344102346100345101346100532099532099531099530100530100530100531100532101196101197101196101196102195103195102195101196102207101207101207100207102207103207000000103207101426099428099427100424102426102426000000102426100455099455100454101453101453101453102454102455101481100481100480100479100479102479102480101481101594101594101592101591102592102592102593101594101166101167101166102165102165104165103166103167102345100345102346102343102343104344103344103345102437102438102437101437103437102436103438104437101515101516101515101514101513102513102514102516101534101535101534100533102533102532102533102534103116102116103116103116000000000000103116103116104185103184103184103183104183105182104183104184103500102500102499103498104499105498104499104500102523101523101521101520102521103521103522103523102593101594102593102592103592103592103593104594104158103158103157104156103155105156105157105158)))
 (.node 2 (.node 1 (.leaf 103483102484102482102481103481104481104482104483105467000000000000000000000000000000106466106467106551104550000000103548000000105549105550106550104592103593103592104591104591106591105591105593107347105347106347000000000000000000000000000000106458000000000000106457106458108457108459108460108164106164107163107162108162109162108163109164107159107159106158106156108157108156109158109159110447109447109446109445110446110446111446111447111187109186110185110185110184112185112186110186110472110472110472110472110472111470110472110472110482109484108482109482110482112481111481110482112164110165111163111163111163111163112164112165112504110503111503110501111503111503113503112503112552109553111550111550111551112551112552112553111580110580110579111578111578113578113579112580113147110148112146111146113145114145114146114147111516111515110515111513111514112513000000112515111563110564111562110561112563112562113564112564112598111598112596111596113596113596113597113598113134113135113134113134114132114132113133113135114165114165113164114163114163116163116163116165113374112374112373112372113372114372114373114374115583114583113582114580114581114581115582115583114595113595114594113593114593114592114593115593115151000000115151114151115151116149116152117153115185115186115185115183115183117184117184117186114371113372114371114370115370116370115370115371114372113372113372114371114371115370115371115372115489115490115489115487116488117488116488117489115506114506115505113504115504117504117505117506116375114376114375114374115374117373116375117375)
 (.leaf 117457116457116456116454117454118455118456118456117504115504116504116503117503118503118503118504117164116164117162116162117162118162118163119164117489117489116488117488118488118487118488118489118515117514116513116512117512119512119515119515119457118456118456118455119456120456120457000000119553117551118551118551118551120550119550119553118562118562118560117560117559120560120561119562119573118573118572117572119571119572120572119572118447117447117446117445118445119444119445119445119477118477119477119476119477119477119477000000000000120190120189000000000000000000000000000000119415119414120414120414120414120414120414121414120558120558118555120556121556122556122556122557120566120566120564119564121562121564121565121566121343121344121343121342122342123341122342122343121360120360121360121359122359000000123359122360121534120534120533000000121532000000122533122534000000122359122358122358122358123358124359124359122504121504121503121502122502122503122504122505122583122583120582121581122581122580124581123583121592120592121592121591122591123591122591122592122578122578121576121575122576124576123576124578124139124140124140124138000000000000000000126140124372122373122372122371123372124372124372124373124390124390123389123386124388125388125389125390124585123585122585122585124585124584124586124586124410123410124410124407124408125409125409125410124450123451124450124449125449125449125449126451000000000000000000124457125457125456126458126459125518124518125517125515125516126516126517126518126521125521125519125519126519127519127520127521))
 (.node 1 (.leaf 126387125387125386125385126385127385127386127387126517126517125516125515126515126515127516127517127526125526125525126524126524127524127525128526127343127343000000126343128342129341128342128343129534128534127532128532128533129533129534129535130354129354129354129353130354131352000000131354129531129531128530128529128528129529129530129530129398129398129397129396130396131396130396130397130574129574129573130572130572132572132572132573130362130361129361129359130359131360131361132361131404130404129404129403130403132404131404132404131458131457130457130456131456132456132457133458131501131502131501131500131499131500131501133502132550130549131549131548131549133548132548133550131554131554131554131553131552132552133553132554133419133420133419133418134418134417134418134420134515134516132515133515134513135513134515135515133579133580132578132578134578136576136577136578135361134361135360133360000000135360135361137361136381135381135380135379136379137378137380136381137570136570136570136569137568137569138570137571137151137152136150136149137149138149138150138153137506136506136505000000000000000000138505138506137571137570137570137568137569139569138570137570139450138450137450137449138449138448139450139451139530137530138528138527138528138527138528140529138533138532137532138530138531139531139532139533139468138468138467138466139466139466139466140468141327140327000000000000000000000000000000142328140472138471138471138469140470140469140470140471142373141373141372141371142371143371143372143372000000000000000000000000000000000000142174142175)
 (.leaf 142328142329142328000000000000000000143327142328142354142354142354142354142354144354144354144354141457141458140456141456142456142455142456143458142519141519142518142517142517143515143518143519142156143157143156142156144155000000000000145157143355143356142354143354144354000000144354145357144387144387144385143385145383146384146384145387145390143391144389143389144389146388145390145391144414143412143411144411144412145412145413144414144414144414144413144412145412145411145412145413146420144421144421000000146420146419146420146420145433144434146431146431000000147430146432147432147397146397146396000000146396147397147397147397147516147515147514146514147514148514148515148516147458147459147458148457148457148456148457148458149366149366149366149366149366151365151366150366150560148560149560149560150560150560151560151561151433149434150432149431151431151431152432152433152329151329151328151327153328153327154328152330152337150338150337151335152335152335153336152338152347152348151346151345153346153345154347153348153350151349152349152348152347153348153348153348153370153371153370152368154369154368154369153370153396151396152395152394154394154394154395153397155368154367154367154365155367156366156367156368153384153385152384152383154383154383155384154385156443000000154441154440157441157441156441157443158402157401156400157399158400158399159400159402000000000000157519158517158518160518000000000000159356159355159354158354159354160354161354161356159358158358159358159358159358161357160357161359158391158391157391157390158390160389159391160391))))
 (.node 4 (.node 2 (.node 1 (.leaf 159434159434159434159433159432160432159434159434160383159383160383159383161381162381160383160384161417160417159416159415160415162414161416161417161419160418160417160417161417161417161418161419161400161400161399160398162398162398161400161401161419161420161419161418162418162418162418162419161425161425161424161423161424162424162425162425164225163225163224163224163224164224164225164226000000000000162460163458163459164459000000000000165455162455164454164454164454166453166454166455165210163210163209163207164207166206165208165210165212164212165212164210165211166211166211166212167352165352166352166351166350168351168352168353167224166224166223166222167222168222168223167224166243000000000000166242168241167242167242167243000000000000000000000000000000167244167245000000169351168351168350168350169349000000000000000000168448168447168446168446168446170445170446169448000000169348169347169347170346000000000000000000170432169432169431169431170430171430170432171432170405169405170405170405171404171403171404171405171444170444170444170443170443172442171444172444171381171382170380171379171379172379173380172381172411171411172410171409173410173409173410172412173444172444171444172442172443174442173444174444172220172221172220172219173219174219173219174221172224171224172224172223173223173222174224175225174240173240175238175238176237177237177238177238175392174392175390175389175390175389176391176392176412176413176412176411176410178410177411177412175422174422176420174420176419177421176421177421178225178226178225178225178225179225180225179227)
 (.leaf 178397178397178396178395179396180396179396179397179224178224178223179222179222180222179223180224179442178442178441179439179440181439180441180442180382179382180381180380180380181380181381180383180400179400179399179398180398180398181399180400182217181216181215180215181215183214183216182217000000000000000000000000181595000000000000000000181264000000000000000000000000182262182262182263184442183442183440182440183440184440185441000000185214184214183213184212184212185212186213186213184217183217184216183215184215185215184216185217000000000000000000183269184270186270185270185271185227184226185226185225185224187225186225187227186400185400185399184398186398186399186399186401187242187243186242187241187241188240188241188242188271186272186271186270187270188270188272188272187395186394186394187394187394188393188394188395188396186396187395186394187395188395188396188396000000000000000000000000188648188647188648188649189251188252188252189251190251190251190251190252190402188401188400188399189399191400190400190402189408188408189406188406189406190406190407190408189412188412188412189409189409191411190411191413190418190418190418189416189417191416191417191418192202191202190202191202191202193200193201192203191210190209190208190208191207192208192208192209193221191221192220192219193219193219194220193220192274191273191273191272193273193273193273193274192407191406192404191404192404194403193405193406194222192222193221193220194220194219195221195222193239192239192238192237193237194237194238195238194393192394192393192392194393194392194394194394))
 (.node 1 (.leaf 193414193414193413192413194414194414195413195416195436194436193434195433195434196434196435195435196646195646195645196644196644198644198644196645196225195225196225196224196224197224198225197225197235195236195235195234196234197234197235197236199391198391198390198389199389200389199391199392199403197404197403197402198402199402199403199403200243199243198242198242199243200243200243201243200248199248199247198246199246201248200248201248200253200253199254199252201253201253201253201253201212200211201212200210202211204210202211203211202262200263201263201260202260202260202262202262201439202438202437202436202437202437202437202438202226201226202225202224202224203224203225203225203227202227202227202226203225205226204226205228204419203419204419203417204417204418204419204419206234206235205233204232206232206232206233206235205258204258204257205257206257206257206258206258206258204259204258204257205257206258206258206258206422206423204423205420207421208420208421206423000000000000000000205441206441207441000000000000208407207407207406206406208406209405209406208406208430206429207429206429207429207428207429209430000000000000000000210282211282212282000000000000211414211414211412211412211412212412211412211414213269212269211270212269212268213269213269213270214397213398213396213395213396215396215397215397214236214236213235212234213235214235214236214237215391213389214389213389214387214387215390215391215406213407214405214405214405215405216406216406000000000000000000000000214606215604215607214606215225215224215223215223215223217223217223217224)
 (.leaf 215236214235214234214233215233216234216235216236216402215402215401215400216400216399217401217402218245216244217244215243217244219243219243219245217259217260217259217258218258219257218258217259216642215642215641215640216639217639217641217642218624217624217623217622218622218621218623218623219605218605218604218603219603220603219605219606000000000000000000000000218654221654219654220654220263220264220263220262220261221261220262220263220614219614220614220614220614221612220614221614222259219259220257221256221256222256221258221258220406221405221404219404221404221403222405222406222428221428220426221426223426224426222426222427222592000000000000000000000000222591222591223592222636222636222636222636222636224635224637224637223236222236223235223234223234225234225235225236000000000000222278223277223277000000000000000000000000000000000000000000000000000000000000223589224407222408222407223407224407224406225408224408224619223619223618224617224617224617224619225619225254224254225253225253225252226252226253226254224417224418224417224416225416225416225416225417226605225607224605224605226605226605226605226605226611226612225610225609225610226610226611226612000000000000224660224659227659226660227659226661228425226426227425227424227424227424229425229426229237228237227236228235229235229235229236230237230244230244229243229242230242232242232243231244230590230591229589229588231588231588231589231590231640230640230640229638230640231638231639231640231251231252230250231250232250233250232250231252232401231401231401231399231400233400232401233401)))
 (.node 2 (.node 1 (.leaf 232401231402231401231401232400232401233401232401232633231633231632230631231631232631232632233632231645230645231645231644232644233643233644231646234233233234233232233231234231234232235232235233233243233243233242233241234241235241235242235242234403233403233403232401233401234401234402234403234636233636233635233634234634235634235635235636235636234637234636234635235635236634235635235636234251235250235250234248236249236248236249236250236395234395235395235394236394236393236394237395234413234412235412235411235410236410235412236412234590235589235588235588000000000000236588237590236657236657236657235657237656237655238657238657238241237241237240237239238238239239239240238240238612237611237611236611238610239610239611238611238613238614238613238612238611238612238612240614238645238645238645238644239644000000239644238646240235238236238235239234240233241234241235241235240606237607239606239605240605241604240606241606240620239620239618238618239618241617240619241619239626239626239624238624240623240622241625241625240651239652239651238649240650241649240650240651239411239410238410239408239409240409240410241410240655240655240654239653239653240654240655240656242622240622241622240622242621243621243622242622000000241257242257242256243256243255000000000000243591243592242590000000000000000000000000243591243226000000000000244225244225245225246225244226247649246649246648246647247647248647248648248649249653248653248652248651249651250651250652249654000000249238250236250235250236251236251237251238251240250240250239000000251238252238251239251240)
 (.leaf 251245000000251244251242251243252243252244252245257226255227255226256224256225258225000000257227258225256225256224255222257223257223258224000000268226267227000000000000000000269225270226000000274224272224000000000000273222000000274223274224000000279224280223279222280222000000000000000000000000000000279224280223000000000000000000000000181426180426180426181425182425183425182425182426013302000000000000000000013300015299015300015301015294015294015293014292015292016292015292016294000000014223015223014221016222000000000000000000016262000000000000000000016260016261016262016263016268000000000000000000016266016265016266016267000000000000000000000000000000016269016270016271000000015295015294015293015292016293016293016294000000000000000000000000000000017308016308018309016272000000000000000000016270017270017271017272019244019244019243019242019242019242019244019244018273017273017272017271018271019271019272019273018274017274017273017272018272019272019273019274018275017275017274017273018273019273019274019275019270018270018269018268019268020268020269020270020276019276019275019274020274021274021275021276020277019277019276019275020275021275021276021277021278020278020277020276021276022276022277022278021279020279020278020277021277022277022278022279021280020280020279020278021278022278022279022280021281020281020280020279021279022279022280022281021282020282020281020280021280022280022281023283021284020285021285020283022284022283022284022285021292021293020291020291021290022291022291022293022295022296022295021294023294023293023294023296))
 (.node 1 (.leaf 24227024228022227024226000000000000000000025227000000000000024316024315024316025316025317025318000000025316024314024314026314026313026314027316027562026562000000000000000000028560028561028562029558028558028557028556029556030556030557030558030568029570030568030567030566031566031567031568031249031249031248000000000000000000032248032249031264031265031263031263031262032262032263032264032305031307031306031305032305032304000000000000032573032572031572031569032571033571000000000000033551032553032552032549033551033549034550035552033587000000000000000000000000033586034586034587035579034581034580034577035577035579036580036581036296036295035295036294036294036293037295037296000000000000000000000000036650036650036650036650037128036128037127036126000000000000000000000000036538036539035538037537037537037536038536038539037543035544035544037543037541037542038544038545037559036561036560036559036559038557038558037560037627000000000000000000037623038623038624037625038550038549037547037546038548038548038548038548038567037567037566036565038565039567038566038568038655037655037654037653038653039653039654038655000000000000039201039201039201000000000000000000040535039537039536039533040535041533041534040535039585038584039585039584040584042583042583041586041052040050039050040050041050041050042049041052042266041265041265041264041263041263042264042265041267041268041267041265042266042265042266042267042109041109000000000000041107043107043108043109042273042273042272042271042271043271043272043273042295042294042293042292042293043293043294000000)
 (.leaf 42627041627041626040624042625042625043626042627042650042649041647041646042648043648043649043650042703041703041702041701042701042701043702043703043104043105042103041103043102044102044103044104043533042533042532041531042532043532044532044535043545042545042544042543043543044543044544044545042570042570042569042568043570045569044571044572043582043581042581042580043580043579044581044582042668041668042668042667043667044667044668044669045040043039044039044037044037046038046038046039044260044261044260044259044258045258046260046261044583043583043582043581044581045581044581045581044600043600043599043598044598045598045599044600043629042629044629043628044628044628045629045630044647043647042646043645044645045645044646044646044691044692043690043689044689045689044691046691045040043040045040044038046038046038047040047040045079045079044080045078045077046077046078046081046407044407045407044407045407047407047407046407045562044562045561045559045560046560046561045561045632044632044631044630044631045631046633045633046216046218045215000000046214047214047217047218046260046261046260045258045259048259048260046261047279046279046278046278046278048277048278048279047284046284046283046283047283000000000000000000046411046412046411046410046411047409047410046411046686045688045685045684045684046686046686047686048118047118047118047117047117049115048116048117047131046133047131046129046130048131047131048131047481047481047481047480047479048479048480047483000000000000000000000000000000048503047503047503047516046516046515045515047516048516047516048516)))))
 (.node 8 (.node 4 (.node 2 (.node 1 (.leaf 46680045680046679046678046678048678048679047680049051047051048051047049048049050049049050050051047092046091047091047090048090048089048090049090000000048405048404048403049403000000000000000000047535047534046533046533048534048534049535048535048599047599048599047599049598049599050599050599049124048124048123048122049124049122050123050124049147047145048146049145049145049145050146049147000000000000048429048428049428050428050429000000049559049559049558048557049557050555050558050559050578048579049578049576049577050577050578051578049681048681047680048679048679050681049681050681050410049410000000000000000000051408051409050410050454050455049453048452050452051452051453051456049523048524049523050521050522051522051523050522050563049563049562050563050561051561051562051563050587049587049586049583050585051585052585051587050646049646049645048645050646050646051645051646050701049701050700049697050699052699051700050701051070050070050069050068051068051069051070052070050110050109050108050107051109052109051110051111051155050155050154051152051153051152052154051154051260050260050259000000000000052258053260053260051446050446051446050446051444052444052445051448052555050555051556051554051555052553052554052555052089051091051090051087053087054088054088053089000000000000051401052399052400000000000000000000052475051475052473052473052473052473052473052474051558051556052555052555052554052555053557052556051712050713051712051711052711052710052711052713053146053144053144051143053142054142055143054144000000053397053396052393053395000000000000000000)
 (.leaf 53488052488052487052484053486054484054487054488053632053633053633052632053630054630054631054632053695052695053695052695054694054693055694054695054089053089054088054088054087055087055088055089055129053128054127053128054128055128055129055130053156052155053155053152055154055154054154055156055088054088054087054086055086055087055088055088055160055159053157053157055158055157055158056158055582054584053582054582055582056582055582056584056046056047055045056044056044056045056045057046056417055419056417056417057416057417058418058419056463055465055464056462056461057461056463057463056559056560056558056557056557057557056558057561056661055661055660055659056659057659056659057659057112056112056111057109057110059110059111059111058139056139057139057138057137059138058138059140000000000000000000056394057394058394000000000000057429057431056430056429057429058427058428058429057519057520056518056517057517058517058518057520057593057593057591055590057591058591058592059593000000000000000000000000000000058395059396000000000000058070059070058068000000000000000000000000058128057127058125057125059124059126060125059128059166058166058165059164059164060164061164060166059204058204000000000000000000000000000000060204060472059473059471059471059472059472060473061473059560059561058561059558059558061560061560061560059575058575057575058575059575061575060576059576000000000000000000059220060220061220000000000000060445059447059446058445060445062443060444061447060497059497059496058494060495061493061496060497060521060521060520059519060519061519061520061521))
 (.node 1 (.leaf 60600059600059599059598059598060598060598061600060617060617060616060615060615062615060615061617060636060637060636059634060634061634062636062636061109061109061107061107060106062105061106062109061143061143060142060141061141062141061143062143062488060489060486061486061487062487062488063489060518060518059517059517061518062518062519062520000000062043061044062042000000000000000000000000061170061170061169061168062168063168063169062170000000000000061220061219062219062219062220062220000000000000000000000000000000000000062226062227063423061423060424061423062423062422063422062424062533062534061532062531062531062532062533064533062614060613062612062612061611063610063613063614062458063457062458063457064457064457064458065459064155064155064155063153065155065155066155065155065384062385064384000000000000000000000000066384063622062621063622062620064621064620064621065621064632063632064632063630064630064631064631065634065096064096065096064096065094000000066095066096065491065491065489065489065489066489066490066491065556065556064555063554064554065554066555065557066434065436065435065434066434068433066434068435067452065451066450066450066451067451067452067453066573065573066571065569066571067571067572066571067118066118067117066116067116068116067117067118066176066175065175065175066174067174067175068175066492065493065492066491067491068491067492067492066603065603066602065602067603068603067603068605000000000000066685065683067684000000000000000000068222067222066222066221068222069222068223068223068416066417066417068415068414068416068416068417)
 (.leaf 68454067454067453067452068452068452068452069452068512068513068512067510068510070511070511070513067532066532066532067529068529069529068531069531068538067540066538067536068538068537068538069540069208068208068207068206069206070206070207069208070438068439068438069436069437070437069437070439069472069473068471068470069470069471070471070472069134068134069134070133070133071131071134071135070187068186068185069183069183071185070185071185070407070407070407069405070405070406070408070408069564068564069564069563070563071563071564070563071101071102070102000000000000000000000000000000071144070144069144070144071144071143071144071145071181069181069180070179071179071178072180072181070489070489069490070489071489072489071489072489070593070591069591069591071591072589071592072591072138071138071137072136072136073136073137072138072209071209071208071207072207073207073208072210072576072576071577072574073575074574073575073576073236072236072233072232073234073233074235075236074615073613073613072613073611075612074614074615074115072115073114074115074115075115076115075115075160073161073160073159074159074158075160076160073190073190073189072188074188074188074188076190074390074390073389072389074388074389075389076390074422074421074420074420074420076419075421076421074638073638072636073636074636074636075637075638075206075207073206074204075204076204076205076206074384074383073382073382075381076383075383076383075389074389074388073388075387075388075389076389074403074402075401075401075400076402075402076402076419074419075417074417075417075417076418076419)))
 (.node 2 (.node 1 (.leaf 75530075530075529075528075528075529075530075531076369075369075368000000076367077367077368077369076495076496075494074494077494077493077494077495076549075549075548076548076547076548076548076550076592075592074590074590076590077590076591076591076618076618076618076617077616077616077617078618077186076186075185077184077184078184078185078186077207077207076206076205077205078205078206078207077425076425077424076423077423079425079425079426077473076473076472075471076471078471078472078473078139078138078137078136078137080136079138078139078203077203077202000000077202078201078203078204078501077501077500077499079499079499079500078502078574077574076574077574077573078573079573079574078590077590077589078587079587078588080589079590080158079157079157079157080157081156081158080159080441079441078439079440079440080440080441080442080444079444078443079443079444080444080445081446079545079545079545079545079545079545079545079545079573077574077573077573078572079572080572080573079140079140078139079138080138081138000000081140079598079598079597079596080596000000080595081596080619080619079618080617081618081619082620081619080126081125081124081124082124082123082124083126081161080161080160080159081159081158082158083161081170081170079170079169081170081169081170082170080376080376080375079375081376082376081376081378081566080566080565081564081564082564081564082566083126080126081124082124082123083123082125083125081570080571082569080569082569082569083568082570081595080595000000081595081595083595082595082596083146083145083145083144083144084144084145084146)
 (.leaf 83220083220083218083217083218083217084219000000083389081388083387082387082386083385083388084389084441083441083440083440083440085440084441085440083486083485083484082484083484083484083485083486083498083499083498082498084497084496084497084498083546081545082545083543084544084544083544084546084141082140082140084139084139084138084140084140084166084167083165082165083165085166084166085166085418083419084417084417085417085417085418086418084529084530083528083527083527085527084529084529084548082548083547083546084546084547000000085548083586083586084584084584084584086583084584084585085361085361084360084359085359086361085360086361085607085607085607084607086607086607087607086607086400086401086400085400086400087400088400087400086466085466086466000000000000000000000000087466086512086512086511086511086510086511086512086513085628084629085628085627085626087627086627086628087148087148087146087146087146087145087147087148087204086202085202087202087202088200088203088204088190086190087189088187088188088188088188088189088397086396087396088394088395089395089396089397088531088532088531087531088531088531089530089531000000089227089227088227000000000000000000000000089399088399089398088397089397089396090398090399088436088436088435000000089434000000089435089436091175090174090173089173090173090172090174091175000000000000000000089384090384090384000000000000000000000000000000090453090453091453000000000000090610088611088611089610089609091610090611090611091484090484090483089482090482091482091483091484091506089508090505090504090504091504092505091506))
 (.node 1 (.leaf 92369091369092369091369093368000000000000000000000000000000000000000000092454093454092454000000092519092519092519092518092517092518093518092520092606092606091605091604092604092604092605093606094130094131093131093128094128094128094130094131094164094164094163093162094162095162095163095164097155094155095154095153096153097153097154097155096506095508095507094504097504098504098505096507096533096534095534095533096531097533097534098535097345097346097345097343097343099343097345097345099455096456097453098453098454099454099455099456098522097522098520097520099520099520099521098522098562096561096561096560098560098559099561099562099529098529098528098527099527100527100528100529099545099545099545099544099543099544099545099546100597099596099596098596100595101595101596101598099608099609099608099608100607000000000000000000100166100166099165099164100164101164102165101166100345098346099344100343101343102343102346100345099428098428099427100424100424102426100426101426101490099489100489099487100487101487101488101489100533099533099532099531100531100531100532100533100140101139100140101139102139102139103140102139100455100456099455100454101454102454102455101455101480100480100479100478101478102478102479102480101536100536100535100534101534101534101534101536102595100595101594101592101593102593101594102595102195102195102195102193102193102194103194102196102436102437101437101436102436102435102436103438101516100516101516101515102515102514102516102517101523100523100521100521101520102521102521102523103345102345103345102343104344105345105345105346)
 (.leaf 102482101483101481102480102480103480103481103482104159103159103158103157104157105157105158105159104500103500104500104499105498105498106499105500000000000000000000000000000000105459106458105460105549000000103548104547105549105549105549105550105594104594103593103592105592105591105593106594107165106165106164107163107163108163109164107165108160107160107159106158108158109158109159109160109484108484107482108482109482110482109482110482110185110185110185108184109183110183112185112186111448110448110447110447111446112446111448112448110580110579109579110577111578111578110578111580110515110514110513109512110512112514111514111514112145112146111146111145113145113145114145114146112166111166112164112164112164113164114165114166113553111552112552112552112552114552113553114554112599111599111598112596112597113597113598114598113133113134113134112131114132114131114132113133112374111374111373111372112372113372113373113374112565112564111563113564113564115563113564114564113372112372112372113371114371114371114371114372115583114584114583113582114582115582115583116584113595113596113595114594114594114593115593114596116165114166114165115164116163116164117164117166114376113376113375113374114374115374115375116375000000116153115151116152116152117152117153117154117186115185116185115183117184118184118185117185116455116456116454116454117454118455118455118456117489115489116489116488117488118488117488117489117505116505115504116504117504118503118504118505117513116513116512116511117511118511119512119515118165118165117164118163118163119163119164119165))))
 (.node 4 (.node 2 (.node 1 (.leaf 117448116448116446116446117446118446118447118448119554117554117551118551118552119550119553120554120562119562118562119561120561121561120562121562119572119573119572119571119572121570120573120574121535120535120534120533121533122533122534123534122558121558120558121557122556123556123557123558121566120566121564121562121564123563123564121565122343121343122343122342123341123341124344124344123359122359122359122358123358124359124359124359122503121503121502121501122501123501122503122504122578121576121575120574121575122576122576122578122584121584122583120582122582124581123583122584122592121592120592121592122592122591122592122593124359000000123358122358123358124358125359125359123585122585121585122585122585124585123585124585124138124140124138000000000000000000000000000000000000123391124390123389124389125389125390124390123410122410122410124407124407124408124409124410124452122452123451122449124450124450124450124452125388124388124387124386125386125386126387126388000000000000000000000000125458126458126459000000126518125518126517125516126516127516127517127518127522126522126521126520127520128520128521128522127527126526125526125525126525127525128526127527128342128342128342128341129341130340129341130343128398127399128398128397129397129397129398129398129574129573128573129571130572130572129572130574131354130354130354130354131352131352132354131354130361128362128361128360129359130359130361130362130404129404129403128403129403130403130404131404132458130459131457130457131457132457133458132459131500131501131500131499131498131499131500131501)
 (.leaf 131553131554131553131552132552133552132552133553133550132550132549131549133548134549134549134551132420131421132420132417133419133419133419133420134514132515133515132514135513135512135513134515135579133581133580132578134579136577136578136580135360135360133360133358135358136358135360135361136150136151136150136148000000000000137149136150136381136381136379136379137378137377137380137381137505136505000000000000000000000000000000138505138531138530137530138528138529138528140529139531000000000000138532137532138532139532139533000000139571138572137571138570138570139570140571139572139452139451139450139450139450140450139451139451140458140459139458140457140456141457141457141458142327142328000000000000000000000000000000143327143372142373142372142371143371000000143371143372142520142519141519142518142518143518143519142519143155143156142156143154000000000000000000000000144354142354143354142354144354144354000000144354145392144391143391144389144390145390145391146391144415142415143412143411144413145413144414144414146384145384145383145383146383147383147384146384144414144415144414144413145413145412145413145415144421143421144421144420000000146420145420146420147396146396000000146396146395147395147397147397148460145459145458145457147458147458147458148460147517147517147515147514147515148515148516147516150366149366150366149366151365152365152366152366151561150560150560150560150560152560151561152561150338150337150336150335151335152335151337152337151432150432149431149431150431151431151431152432154328153328153328153327153326154326154327154328))
 (.node 1 (.leaf 153349152349152348151346153347154347153348153348152350151351151349152349153349153348153348153350153369153370152368153368154367155368154368154369154386152386153385152384154384155384154385154386154395154395154394154394154393154394155394155395156368155368155367155367156366156367157368157368157443155442000000154441156442156441157443000000157400156400157399157399158399159398158399159400000000000000000000157519158519000000000000000000159390157391157390157389159390160388160389159391159433159434159433157432159431160431160432159434161356159356160354159354160354161354162354161356161359159358160358159358161357162357162358162359160418160417160417159416160416161416161417161418161420160420160418160417160418161418161419161420160383161382161381161381162381162380162381161383161399161399160398161397161397162397162398161400161424159425159424160424160423161423161424161424163210162210162209162208163209164209165210164210164227164227164225164225164225165225165226164227166455165455165454164454166453166454166455167455165212164212164212165212166212166211166212166213000000000000000000164241166242168241166242166243167225166225166224166223167223168223167224167225168353167352167352166350168351169351169352169353169449168449168447168446168447170446169448169449000000169351169350169349000000000000000000000000170433169432169432169431169432170432171432000000000000000000170347170346000000000000000000000000171405170405171405171404171403172403171404172405172444171444171443170443172442172443171444173444172222170222171221171220172220172220172220173222)
 (.leaf 173380172380171379000000000000000000173379173380172410172410171409171408172408172408173409173410172224171224171224172224173224174224175225173225177238176237176237176237177236178236178237178237176392175392176390175390175389178390178390178391176411176412176411175409177409177409178410177411177423175422174422176420176422176421177421176424179225178225178224178223179223179223180224180225179443178443178442178441179441180441180442180443180381180381180380179379181380181379181380181381180399179399179398179397180397180398180398181399182217181218181216181215181216183216182217182218184218182218183217184216184216184216185217185218000000184442184440183440184440185440000000000000185215184215185214185213186213187213186214186215186399185399184398184398186397187397186399186399186244185243186243186242186242187242187242188242186272185272185271185270186270187270187271188271187395186395186394186393186394187394187395187395000000000000000000000000000000188648187648000000188252188253187251187250189251190251189251189251188401188400188399187398188399189399189400190402188408188407188406188405188406189406189407189408190410188412189409188409190410190410191411190411191202189203190203191201191202191202191202192202190208189209190208189206191207193207191207191207190419190419190418191419191417192419191419193420191275190274191275190274191273192274192274193274192222192222191221192220193220194220193220194222192240191240191239191238192238193239193239193240192394191394191393191392192392194393193393194393193404192404191404191403193402193402194403193405)))
 (.node 2 (.node 1 (.leaf 195437193437194436193434195435196435195435195437000000196647195646195645196645198644196645000000197227195227195225196225197225198225197225198227197404196404196403196402197402198402198403199403199243198243198242197243198242199243199243200243199248199248198247198246198246199246199248200248199390198390198389199388199388200388200389199391200253199255199254198253199252201253200253200253200264199264199263200263201263201263202262202263201213201212200211201212202212202211203211202213202440201440202438202437202438202437202438203440202227201227201226202225203225203225203225203226202227201227201227201226202226203225203226203227204418204419203417203416203417204417204418204419206235204234205233204232204232206232205234206234204258203258203258204255205257206257205257205258204259203259203258203258204257205257205258206258206423206422207422207421208420209420208421208424208406208407208406208406209405210405209405209406207432207432208430208430207429208429210430208431211415211414211414211412211413211412211414211414212269211271211270212268212269212268212269213269213235211235211234212233212234213233213235213235214388214389213389214386214386214386214387215390215397214397214396213396215396215394215397215398214408214408213407214405214406216406216406216407216225215225215224215223215224217223217224217225214235213235213233213232214233215233215234215236215642214641000000000000215640216639216641216642218245218245218245218245219243220243219244219245218258218258218258218258219257220257220257219258217624216625217624217623218623218623218623218625)
 (.leaf 219604218604218603218602219602219603220603219605000000000000000000000000219655219654220654219656220262220263220262219260219261220260221261220262221257220257221256220257222256223255222256221258221407220407221405221404221405222405222406222407000000000000000000000000000000000000221592222592222429221429221428220426222427222426222427222428222408221408221408222407223407224407223407224407224637222636223636222636224635224636225637225637225236223236224234223234225234225234226235226236224419224418223418223417224417224417224417225419224618223618224617222617000000224617224617224619225610224610224609224608224609226608225610225610000000000000000000224660226661227659226661000000228238227238228237227236228236229236230237230238229589229590228588228587229587230587231588229589232243231244230244231243232243233243233243232243231640231640231640230640231638233639233640233640231644231645231644230642232643233643233643233644233401232401232400231400233400233400234400234400233633232633232633232632232632233632234632234633233402233403232401233401234400234400234401234402235233234233234232234231234232236231236233236233235636234636234635234634235634236634236634235635235249235250234248234247234248237247236248236249235411235412235411235409236409236409236410235412235588235588235588000000000000000000000000236588236656236657235657236654236654238654237655238657238612238613238612238611239611239610238612238612240626239626239626239624239625241625241625240627239644239644239644238644239644239644239644239644239650239651238649239648240648241648241649240650))
 (.node 1 (.leaf 241235240235240234240233241234241234241235000000240409238410239408238407240407241407240409240410240608240608240606240606240606241606241607242608241619240620240618239618241617242617241619242619240654240654239653239652239652240653240654240655242256242257242256242256242256244255243255000000242622242622242622242621243621000000000000000000244226243226245225244225245225247225247226247226248649247649248649247647248647249647248648249649249652248652248651247650249650250650250651250652250239249239249238250236250237251237251238000000000000000000000000251244251244252244252245000000256228255228255227255226256226000000257227257228000000256226256225256224257224258224000000258226270227269228267227000000269226270226000000000000273225000000272224000000273223274223274224274225084185084185084184084183084183084182084183085185180426180426179426180426180426181426181426181426000000000000000000000000013301015300015301015302015295015295015294015293015293015292016294000000000000015223014223015223016223000000000000000000016261000000000000000000000000016260016261016262000000000000000000000000016267016266016267016268000000000000000000000000000000016270016271016272000000015296015295015294016294016293016294016295017273016273016272016271017271018271018272018273017274016274016273016272017272018272018273018274017275016275016274016273017273018273018274018275019243019243019242019241019241019241019242019244018270017270017269017268018268019268019269019270019276018276018275018274019274020274020275020276019277018277018276018275019275020275020276020277)
 (.leaf 20278019278019277019276020276021276021277021278020279019279019278019277020277021277021278021279020280019280019279019278020278021278021279021280020281019281019280019279020279021279021280021281020282019282019281019280020280021280021281021282020285019285019285019283020283022284021284021284021294021294019292019292020291021292021292021294022297021296022296022295023295023294023296023296000000025317025316024314026315026314027316000000000000000000000000000000000000000000000000026561028558028559028558028557029557030557030558030559030567030568030567029565030565030565031566031567031248031248000000000000000000000000000000032248031263031263031263031262031261032261032262032263032553031553031552031549032549033551032551033551032574031572032572031572032572000000000000000000000000032308032305033306000000000000000000000000034580000000000000000000034576034577035577034578036297036297036295035295036295037295037296038297037127037127036126035125000000000000000000000000037542035544037543036540038540038542037542038544037624000000000000000000000000000000038623038624038551038550038549037547038549038548038548039549038656037656037655037654038654039654038655039654039537037536038536038535039533040535039535040535041587038586038584039585040585042583041586041587041053040051040050039050041051042049041052041052041266041267041265041265042264042264042265042266042108000000000000041106041107043106043107043108042272042272042271042270042270043270043271043272043295041294042294042293042294043294000000000000042570041570041569041568042568043570042570042570))))))
 (.node 16 (.node 8 (.node 4 (.node 2 (.node 1 (.leaf 42628041628041627041626042626043626042627043628043651041651042649041647042649043649043650043651041668041669041668041667042667043667042667042668042702041702041701000000000000042701042701043702043103042103041103042103042102043101044102044103043583042583043581042581043581044581044582044583043648042648042647042646042646043646044647044648044038044039044037044036044036045038046038046038044259044260044259043257000000000000045258046260044544044544043543043542045542046542045543045544044584043584043583043582044582044581045581045584044601044601043600043599044599045599044600046600043629043629042629044629044629045629045630045631044690043690043689044689043688046688045689044691045078044080045078045077045076046076046077046078046260044259044258000000000000000000045259045259044563044563044562045561045561046561045561047563045631044631044630043629045631045630045631046633047040046039046038046038046037000000000000047039047131044130045129045128046128048130046130046130046215045215000000000000046213047213047214047217046281046279046279046278046279048278048279000000046407046407046407045407047407048407048408047407046515045517044515045515046515047515047516046515046685045685045684044684046685046684046686046686000000047284047283047283000000000000000000000000046411046411047411046411047409000000048410049411047480047481047480046478046478048478048479048480047679046679046678045678046678048677048678048679048050048051047049048049048048049048050049049050048091046091046091047091048091048090049090049091048124047124047123047122048122049124048124049124)
 (.leaf 48598048599047599047598048598050598049599050599049148048146047145048146049146050146049147050148000000000000000000048429049429050429000000000000048524048524048523048522050521050522049522049523049578048580048579049578049578050578051578051578049646047647047646047646048645050646049646050646049680047680048679048678048679049678050681049681050453049453048452050451050451050451051452051453050560049560049559050558050558051556051557051558050562049562050563049562050560051560051561051562050588050588049587049586050586052585051587051588049702049702049701050700050700051700050701050702051069050069050068050067051067051068051069051070051156051156050155050154051154052154051154051155051259050259000000000000000000000000052258053260051445051446050446050445051443052443052444052445050713000000000000050712051712051712051712052714052088051090051087052087052086053086054088054088051475050475051475052473052474052473052474054474053489052489052488052487053487054487054488053488053631053633052632053629054629054629054630054631054088054088054088053086054086055086055087055088055143054143053142054141054141055141055142055143053156053157052155053155054155054154055156054156000000000000054395053395000000000000000000000000054584054583053583053582054582055582054582055582055694054694054694054694055693055692055693055694055087054087054086054085054085056087055087055088056131055129055129055129055129057129056130056131055161054161055159053157055159055158056158057160054661054662054661054660055660055660056661055661056045055045056044056044056043057045056045056045))
 (.node 1 (.leaf 56416056417056417055416057415057416057417058418056462055464056462055460056460056461057461056463056558056558056557055556056556057556057557056558057113055113056112056111057111059111059111058113057518056518056517057516057516059516058517058518058138058138057137057136058136058136059137059138058428058428057429058427058426059426059427059428058575057575056575057575058575059575058575059575059129057128057127058125059127060125059128059128059167058167058166058165059165061164060166061167059448058446057445058444059446059446060445060446059559058561059558058557059557061559061560061560061473060472060472059472059472061472062472061472059497059498059497059496060496061496060497060498060601059601059600059599060599060598061600060600060618060618060617060616060616060615061617061618060635060636059634059633061634061633061634062636061110060110061109061107061108061106062109061110061142060142060141060140061140061141062141061143061423059424059422060421061423062423061423063423000000000000061170061169062169063169062170063171000000000000000000061220062220062220062220062221063489062488062487061487062487063487064488063489061521061519060518062519062519062519063520063521062532061532062531062531062530062531062532062533062615062615060613062612062613063613063614062614063456062458063457062456064455064456064457064458064383064384000000000000000000000000000000000000064622062624062621063622064622064621065621065622064631064632063630063629063630064630064631064631065155064155065155065155065155067154066154067157064436063436063435065435065435065435066434065435)
 (.leaf 65492064492065491065489065490066490066491065492065555064555063554064553065553065554065554066555065574064574065573064572066571065572066573065573066096065096066096065094000000000000000000000000066454065452065451066450066452067452067453067454066602065602064603065602066602067602067603066602067119067119066118067117067117067117067118067119067174065175065175066174066174067174067174067175066222066221065221065219066221068221068222067221066540066541066538066537066538067539068538068539068415066417068415066413068413069415068416068416068511068512067510066509069509070510070511070511068530066532067529066529067529069528069529068531069207068207068206000000069205069205070206070207070407067408069406068406069404069404070405069406069134069134068134069134070134071134071135072136070144069144068144069144070144071144070144071144070188069188068186068185070186070185071185070187071440069440070438070438069437070437071439071440070472069472070472069470069471070471070472071472070489068491069490069489070489071489070489070489070566069564068564069564070564071564070563071566071100070102000000000000000000000000000000000000070181069181069181069180071180072180072181071182070593069593070591069591071592071592072591073592072139071139071138071137072137073137072138073139072208071208071207072206072206073206073207073208073190072190072189071188072188074188073188073190073237072237072236072233073235074235075236073237073575073575073575072573074574074573074574074575074615072614073613073613073614074614074615075616074160073162073161073160074160075160076160076161)))
 (.node 2 (.node 1 (.leaf 74383073383073382073381073382075381074383074384074389073389072389072389073388075387074389075389074639074638073638072636074637075637075638075639075115074115075115074115075115076115077115076115075205073206074204074203075203076203076204076205075401075401075401074401075399076401076402075402076419074420074419075417075418076418076419077420076421074422075420074420076419077420077421077421075529075529075528074527075527076527075529075530076368075368000000000000000000000000077367077368076494075494074494074493076492077492077493077494076548075548076548075548076546077548076548076548076187076187076186075185077185078185078186077187077206076206076205076204077204077204078205078206077424077424076423077422077422078422079425079425077472076472075471076470076471077470078471078472078140078139078138078137078138079138078139079140078500077500077499076498078498078499079499079500077574076574077574077573077573078572078573079573078591076591077590077589078589080589079590079591079140078140078139078138079138080138079138079140080160080159080158080158081158081158081159080160081170079170079169079168079169081170080170081170080376080376079375078374079375081376080376080376080443079441080441080441080441081441082441082441079598078598079598079597080597080595081596081597081124081124081124081124082123083123082123082124081567081567080566080565081565081564082566082567080571080572079571080570082569081570081570082572083147083146083145083145083145084145084146084147083165082165081165082165083165085165083165083165000000082221083220083218083219084219000000000000)
 (.leaf 83390081388081388083387083388083388084389083389083441082441083441083440083441084441085440084441000000083486083485083484083485083485083486083486082546081546081545082545083545083544084546083546083547082547081546081546082546083546084546083547084142083142082140082140084140084140084140085142084498083498084498084497084496085496085497085498084528083528083527082527083527084527085527084529083586083587083586084584084585084584084585084586085360084360084359085358085358085359086361085360086419084420085418085418085418087418086419087420086511086511086511086510086509087509086511086512086607085607086607086607086607087607088607087607086628085628084629085628086628086627086628088628086149086149087148087146087147087147087148087148088205087204086202085202087203088203088204088205087400086400087400086400087400088400089400089400088191088191086190087189088189088188088189088191089398088397086396087396088396089396089397090397089435088435000000000000000000000000000000089435091175089174090174090173090174090174091175091176090399089399090397089397089396090396091396090398090483089483089482089481089481090481090482090483091505090505090504090503090503091503091504092505092518092519092518092517092516093518092518093518093607092606092606091605092605092605093606093607000000092369093369093368000000000000000000000000094129093131093128092128093127094128094128094130097155094155094155095154096154097154097155097156096505095507094504094504097504098503098504098505096532095534095533095532097531097532097533097534097344097345097343096342097342098342099343097345))
 (.node 1 (.leaf 96561095561096561096560096560098560097560098562098428098429098428097427099427099427099428099428100457099456099455099455099455099455100456100457099530098530098529098528099528100528100529100530099544099545099544098542099542099543099544099545100597099598099596099596099597101596101598000000100344099344100343099342101343101342102343102346100457100457099456099455099455100455100455101457100479099479099478099477099477101477101478100479100488100489099487099486101487101486101487101488100534099534099533099532100532100532100533101534000000099608100608100607000000000000000000000000101167101166100166101165102165102165101166101166100516100517100516100515101515102515101515101516100523100523099521099521100521101520101521101523100537101536100536100535101535101534101536101536102139100140102139102139102139103139104139104139101481101481101480100479102479102479102480102481102196102195103195102193102194103194103194103195103344103345102343102342103342103343105345105345104437102437102436103437102436105436105436104437104160103160103159103158104158105158105159105160104499104500104499104497105498105497105498106499104594102593102593103592103592105592104592105594107161107161106160106159107159107159108160108161108166107166107165108164109164110164109165109166108484106483106482107482108482109482108482109484110184110185108184108184109183112183110183112185110581110580110579109579110579110578111580111581112448111448111447111446112446000000112448113448111513110513109512109511110512112513112514111514112167112166111166112164112165114165114166114166)
 (.leaf 111374111373000000111373111372112372112373112374113554110555111552112552112553113553114554113555112564110565110564111562113564113564112564112565111600000000111599111598112598113598114598113600114146112145113145113145113145115144115146000000112373111373111372111372112372113372113372113373114132114132114132113130114130116131114131114132113376112376112375112374113374114374114375114376113596113597113596113595114595115593114596115597116584115584115583115583115583117583116584117584116167115167116165116165117164118165117166118166116488116489116488115486117486118487118488117488117155000000000000117153117153118153117153117155118185117184117184117184118183119182000000119185116449116449116448116447116446117447117448117449118504117504117504117503118503119502118503118504117512116512116511117510117510118510118511119512120166118166118165119164119164120164120165121165120555119555119554119553119553120551120554121555119564118564119562118562119562120562121562121562120574119572120572119572121570121572120573120573121536121535120535120534121534122534123534123535121567120567120566121564121565123564121565122567121576121577121576119575120574121575121576122578121592121593119592120592121592122592121592122592122342122343122342122341123340123340123341124344122502121502121501122500123500123500123501122503123558122558122557122556123556124557124558124559122585121585121584122583122583123583122584122585122452121453121451122451123451123451124452124453125360124359124359124359125359125359126359125359123411123412122410122410124410124409124410125410))))
 (.node 4 (.node 2 (.node 1 (.leaf 125389124389124388124387125387126387126388127389127519126519125518126517126517127517127518127519128523127523127522127521128521128521129522129523127528127527127527127526128526129526128527128528129341129341129341129340130340131340131341131342128362128361127361127360128360129359129361130361128400127399127399128398129398129398129398130400129404127405128403127403128403129403129404130404130574129574129573128573129573129572130574131575131460129459130459131457131458133458132459133460131499131500131499131498131497131498131499131500131552131553131552130550131550132550133552132552132548132549131549132547133547134547134549134549133420131421131421132420133420133419133420133421133581133580133580132579132578134579133579135579134513133515132514132512133512135511135512135513136149136150136148000000000000000000000000137149137382136382136381137380137380138380138381138382138572137572137570137570138570138570137570139571000000000000000000138532138533139533000000000000139453139452139451139450139451139451139451139453139532138532138531139530140529141529000000000000140459139459140459139458141458141457141458141459143521142520142519141519142519143519142519143521143372143372143372143371000000145370143371144372000000143155144155000000000000000000000000000000144354144354144354144354144354146354146355146356145416143416142415143412144414144414144414145416143421143421142421142420144421144421144421144423146391145392145390144390145390146390146391146392146384146384146384146383147383148384148384148384148460145461145459145458147459147458148460148461)
 (.leaf 147518146518147517147515147516148516147516149516150337150337150337150336150335151335150337150338152366150366151366151365152365153365152365153367151431149431149431150431151429152429151431151431152561151561151560150560152560153560153561153561152349150348150347150346151346153347152347153349153327153328153327000000000000000000154326154327153350152350151351151349153350153348153350154352152386152386152385152384152384154384153384154386154369153369154369154367155368156368155368155369154394154394154394152393000000154393154394155394000000156444155442000000156443157443000000156444157391156390156390156389157389159390158390159390159400157400158400158399159398159398160399160400159432159433157432157431159430159430160431160432160357160358159358159357160357161357162357162358161356161356161354160354161354162354163355162356161419161419160418161417161417162417162418161418162381162381162381162380163380163379162380163381162398162398161397161396161396162398162398162398163212162210161210162210162209163210163210164212164228164227164227164225164226165226164227164227164212164212163212164212165212166212165212165212167455166455166454166453166454168453168454168455166225165225166225166224167224167224167225168224169353168353168352168351169351000000000000000000169449168449168449168447168448169448169449170450000000170433170432169432170432171432172432170433172444171444171444171443171444171444173444173444172223172223170222171221172221172220173222173223172379171379000000000000000000000000000000173379173410172410173410172408172408174408174409174410))
 (.node 1 (.leaf 177392176392175392176390176391178390178391177393176410176411175409174408177408177408177409178410178237177238177237177236178236179236179236178237180225179225178225178224179224180224180225180226179444179444178443178442179442180442180443181444180380180380179379179378179379182378181379181380180398179398179397179396180396180397180398180398182219182219182217182217182217183217182218182218185219182218182218183217184217185217185218185219000000000000000000185441000000000000000000000000186215185215186213186213187213187213186214186214185272000000000000000000185270186270186271186272186398184398184398185396185396186396187397186399186244185245185243186243187243187242188242187244187253187254186253186251187251188252188252188253189406188406188405188404189404190404189406189407189409187411187409188407188408189408190410189409189203189204190202190202191201191202190202191202191275189274189273189273190272191272191273191273191418190418191419189417191416191416192419191419191240190240190239190238191238192238192239192240191394190394190393191393191392192392192393192394192404190405190403191402191403193402192404193404192222192223192222191221193221193220194222195223195438193438193437194436195436195435195437195437195227195227195226195225196225197225196225197227000000000000196647195646196646196645000000000000196404195404195403195402196402197402197403197404198242196243196242196240197241198241198242198242199247198247198246198245198246199245199246199248198255197255197254197253199254199254200253199255199389198389199388199388198387200387200388200389)
 (.leaf 199264198263198263199263200263201263200263200264201212200212200211199211201212202212201212201213200440000000000000200439202438201439202440000000201227201228201227200226201226202226202227202227201228200229201228201227201227202227202227202228203258202258202258202255204255205257204257204258203259202259202258202258203258204257204258204259204417203417203416202416203416206416204417204418205233205233204232204231204231205232206232205234208421208421208420208420209420210420209420210422209406208406209406209405210405210406211406211407208431207432209430207429208429211429211429000000210271209272211270210270211270211270212269213270211416211415211414211414211414211414211414211415211234210234210233210232211232212232212234212234213235212234212234212232213232214233214234214235214387213389214386212385214385216386214386214387215227213226215225215224215225217224217225216225215399215398215397215397215397216395216396215398216407214408215406214406216406216406216407216408214641214641000000000000000000215640215641215642217625216625216625217624218624218623218625218625219245218245219245219243220243220243220244220245220257219257219257218257220257220257221256220257220261220262219260219259219260222259220260221261221408222409221408221407222407223407222407222408221430000000221429221428222428222427222428222430224420224419224418223418224418224417225419224420224617224617222617222617224617225615224617224617225637223637224637224637225637225637226638226639226237225237225236225235226235226235227236227237225609224609224608224607224607225608226608225610)))
 (.node 2 (.node 1 (.leaf 229239228239228238229237230237230237231238230239229588228588228587229586000000000000230587231588231639231640230640231637232638233638233639233640232401232401232401232400232401234400234400233401233644231644232644232643233643234643234643233644234633233633233632232632233632234632235633235633236233235233235232234232236231237232237233237234235410235411235409235409236408237409236409236410236249235249236249234248237247237247237248236249238657236656237656236654238654239654239656239657238611238612238611238610239610240610239610238612238410238409238408238407238407240407239409240409240627239627239626239626239626241625240627241627241621240621240620240618240619241619242619241621241237240237241235241235241235241234241235242237242608240608241606240606241606242606242607242608000000242256243256242256244255000000000000000000000000242622243622243621000000000000000000000000247226244226246225245225247225248225247226248226249651248651247650248649249649250649250650250651000000000000000000000000251245252245000000000000257228256228257226256226000000258226258227258228258227257227000000258225000000259225259226000000269228266228267227267226000000269226268226270227275226000000273225274224274224275224000000275224047118047118047118047118047118048116048117048118084186084186084185084184084184084183085185085186180426179426178426179426180426180426180426180426000000000000000000000000013302015301015302015303015296015296015295015294015294016294000000000000016260000000000000000000000000016259016260016261000000000000000000000000016268016267016268016269)
 (.leaf 16273000000000000000000016271017271017272017273016274015274000000000000016272017272017273017274016275015275015274000000016273017273017274017275017270016270016269016268017268018268018269018270019242019242019241018240018240019241019241019242018276017276017275017274018274019274019275019276018277017277017276017275018275019275019276019277019278018278018277018276019276020276020277020278019279018279018278018277019277020277020278020279019280018280018279018278019278020278020279020280019281018281018280018279019279020279020280020281019282018282018281018280019280020280020281020282020286019286019285019285021285021284021284022287021295021295021294019292021293021292021294022295021296021297021296021295022295023295022295022297028558027559028559028558029558030558030559029560030566030567029565029564030564031564030565031566031262031263031262030260032261032260032261032262032554032554031553031552032552032551033551033552000000031573031572032572032573000000000000000000034577000000000000000000034575035577034577035577036298036297036297036295036296037296038297036296037541037543036540035540037539038539038542037542037623000000000000000000000000000000000000038623038552038550038550038549038550038548039549039550038538038536037536038536039536039535040535041536038586037587038586038585039585040585039585041587041054040052040051040050041052041052041052042052000000000000000000000000040106042107041107041107042271042271042270041269042269043269043270043271043296041295041294042294042295000000000000000000042569041569041568041567042567043569043570042570))
 (.node 1 (.leaf 41628041629041628041627042627042627043628044629042652042651041651042649042650043650043651042652042668040669041669041668042668042667042668043668042701041701000000000000000000042700042701042701043102041103042103042100043102043101043101044102043584043583042583043581043582044582044583044584043649042649042648042647043647044647044648044649044037044037044036044035044035045037045038046038044258044259043257000000000000000000000000045258044543043543043542043541044541045541046542045543043584043585043584043583044583045581045584045585044602044602044601043600044600044600046600046602044631044632043630043629043629045631044631045631044689043689044689043687043688046688046688045689045077045078045077044075045075046075046076046077045258044258000000000000000000000000000000045259045517000000000000000000045515046515045515046515045564044564044563044562045562045561047563046562045684044684044683043682045684046684046685045684046038046038046038045038046036000000000000000000046129045129045128044129046127047127048130046130046214000000000000000000000000047212047213047214046093045092046093046090046091047092048091048092000000046281047279046279048278048279000000000000047407046407047407047407048407000000000000000000047410047411046411046408048409000000000000048410047479047480046478047477047477047479048478048479048049047049048049047049048047049047049048050049048123047123047122047121048121049123049124048124048679047679046678046678048677048678048679048679049149048149048146047145049147049147050148050149048524047524048524048523049523049522049523049524)
 (.leaf 50599048598049598048598050598051597051598051600049645047646047646048645049645050645050646049646050452048452050451048450049450051452050451051452051560049561049560049559050559051557051558051559050561050563049562049561051560051559051560051561051578049578050578049578050578050578052578052578050589048588050588049587050587051587051588051589050703049703049702049701050701050701050702050702000000049713050714049713000000050713050713051715051068050068050067050066051066051067051068051069050157050157051156050155051155051154051155053157051444050446050445051442051442051443052443052444052475051475050475051475052475052474054474054477054088053087052086052085052085054085054086054087052158052158053157051155052155053156053156053157052489052490052489052488053488054488053488054490053630052632053629053629053628054628054629054630054087054088053086052085054085054085055086055087054142053142054141054140054140055140055141055142054693054694054694054692054693055691055692055693055086054086054085054084054085056084056087055087056131055131055129055129055130056130056131057130055162053161054161055159055160056158057160056162055661055663054662054661055661056661055661055661056044056044056044054043056042056042057045056045056461056462055460055459055460057461056461057461056557056557055556055555056555057555057556057557057114055113055113056112057112059111058113057113058418056416057416057415057416000000000000000000057517056517057516055515057515059516059516058517057575055576056576056575057575058575057575058575057129057128057127057126057127058128059129058130)))))
 (.node 8 (.node 4 (.node 2 (.node 1 (.leaf 58427057429058427057425059425059425059426059427059138058138059138058136058136060136060137061140059168058168058167058166059166060166061167059168059449059448058446057445059447060445060446061448059558059558058557059557059556060556061559061560059424059424059423059422059422060424061423061424059474059473060472060472060473062472061472061473060499058499059498059497060497060497060498060498059601058601059601059600060600061600060600061602059619060618060618060617060617061617061618061619060634059634059633058632059632061632061633061634060110060111060110061109061109062109061110061110061141060141060140059140061139061139061141062141000000000000000000060170061170061170000000000000063489061488062488062487062488064488063489063490061521061520061519060518062520063520063521062522062531062531062531062530063529063529062531062532062616060615062615060613062614063614062614063614062624061623061623062622063622064622063622064622065459062458063456064457064457064456065458064458063554063554063553062553064552065552065553064554064630063630063629062628063629065630064630064631065438063437063436063435065436066434065435066436065493064493064492065491065491066491065492065493065575063575064574065573065573066573065573065574065602063603063602063600065602066602065602066602066095066096065094065093000000000000000000000000067157065155066155065155067154067153067156068156066221064222064221064221065219066221066221066222067120066118067119066118067118067118067119068120066541065541066541066538067540068538068539068540068414068415066413067412067412069414069415068416)
 (.leaf 68510067510066509066509067509069508070510070511068529067529066529067527068527069527069528069529069134067134067134068134069134070134069134069134069144068146068145069144069144070144069144070144069206068206000000000000069204070204069205070206069405069406068406069404069403070403069404070405069490067492068491068490069490069490070489070490069564068566068563067563069564070564069564070566069189069189069188068186070187071185070187070189070441070441069440070438070439071439071440071441070471070472069470068470069471070471070471070472070593069593069592069591070591070593070593072593070183069182069181069181071181072181071182072183072140071140071139071138072138072138073139073140072207071207072206071207072205072206073206073207074191072191072190072189073189073188073190074191073238072238072237072236073236075236073237073237073382071384071382071382073380073381073382073382074388072389072389072388074386075386075387074389074574074574074574074573075572075572075573075574074617073615074615074615074615075615075616076617073639073640074638073638074638075638075639076639076161074160075160074160075160076160076161077162075204074204074203074202075202076202076203076204075400075401074401074398074399075400076401076402076421075422074422075420075421077421077421077422075528075528074527073527074527076526076527075529076115075115076115075115076115077115078116077115076367000000000000000000000000000000000000077367077421075421076419076419076419077419077420078420075471075473076470076470076469077469076471076471076547076548075548075545076545077547077548076548))
 (.node 1 (.leaf 76188076188076187076186077186078186077187078188077205076205076204076203077203078203077204078205077423076423077422077422078421078421078422079425077494076494077494076492077492077493077494077495078141078140078139078138078139078139079140079141077591076591076591077590078590079590079591000000079170079170077169077168079168079169079170081170079499079499078498079498079497079498080498079500079598079598077599078598079598079598079598081598080161080159080159080158080159081159080160081161080375079375078374079375080375082373081376080376080444079444079441080441080442082441082441081444079572078572079572080570079571080571080571080572081568080566081567080566081566082566082567082568082124081124082124082123083123084123083123082125082165081165080165081165082165083165082165083165083148082148083146083145083146084146084147083147000000000000082221083220083220000000000000085221083391082391081388081388083389084389083389083390083486000000083486083485083486083486083486083486083527082527081527082527082527083526083527083527083546081546081546081545083546084546083546084546083588082588082587082586083586083586083586083587084143083143083142082140084141084140085142085143084497084498084497083497085495085495085496085497085359084359085358085358085357085357085359086361085628083629083629083628085628086628085628086628087420086419086418085418087418088417088419088419086510086511086510086509087508087508087509086511086149086150086149087148087148087148087148087149088206087205087204086202087204088204088205088206087607086607087607086607087607088607088608089609)
 (.leaf 88192087192088191086190088190088189088191088191089400087400088400087400088400089400090400090401089434000000000000000000000000000000000000000000089482087483089481089480089480089480089481089482090400089400089399090397090398091396090398091400090504090505090503090502090502090502090503090504092177091175091175091175091175092175092176092177092517092518092517090515092515092516093518092518093607092607092606092606092606093606093607094607094128093128092128092126093127095126094128094128096531095533095532095531096531098531097532097533000000000000000000000000096561096561096561096562097157096157097155097155097155097155098156098157097343097343096342000000000000000000098342099343098504097504097504096504098502098502098503098504097429097430097429097428098428098428098428099430100457099458099456099455099456100456100457101458099531098531098530098529099529100529100530100531099543099544098542098541099541099542099543099544101458100457100457099456100456100455101457101458100478099478099477099476100476101476101477101478100487099487099486000000100485100485101486101487100523099523098522099521099521100521100521100523100535099535099534099533100533100533101534101535000000100597100597099597101596000000000000000000101168099168101166100166101166101166101166101168102343101343101343100341102341102341102342102343100518100518100517100516101516101515101516101517102480101480100479101478102478103478102479102480103140103140102139103140104139105138105140105141103194103195102193102192103192103192103194103194103440102438102437102436103438105436104437104440)))
 (.node 2 (.node 1 (.leaf 103595102595101594102593102593103593104594103595103161103161103160103159104159105159105160106161105345103344104344103342103343000000106344000000105498105498105498105496105496105496106497105498108162107162107161106160107160108160108161109162107167107167106166106165107165107165108166108167106483105482105481105481107482108482107482108484108184107184108184108181109181109182109183109183109512109512109511108510110512110512110512110512112449111448111448111447111448112448113448113449110564110565110562111562110561112563113564111563112168111168112166111166112166114166114166114166111373000000111373111372111372112372112372112373000000000000000000111599112599114598113600113601112376112375111375111374112374113374113375113376113555113554113553112553113553115553115553114555113597112597113596113595113595114595113595113596114131114132113130114130115129116130116131114131000000114146114145113145115144116144116144116146117450116449116449114447116448116448116449117450115585115584116584116584116584118583118585118585118156116156000000000000117154117153117155118156118167116168116167117166117166118166119167119167117488116488117488117486118487119486118487118488117511116511117510117509117509118509118510118511119185118185118184118183119182000000000000000000118503118503118503118502119502120502120502120503119167119167118166118165119165120165121165121167121556120556120555120554120554120552122554122556121562119564120562119562120562122561122562121564121537121536121535120535121535123534123535121536121568121567120567120566121566121565122567122568)
 (.leaf 121575121576119575120575120574122575121575121576121453120453121453120451121451122452122452124454122501121501122500122500123499124499123500123501121585121586121585121584122584122584122585122585123341123341123340121339123339124341124342124343123412121411121410121409122410124410123410123411124559123558123557123556124557125556125557125558125359125360125359125359125359127359000000127361125390124390124389124388125388126388127389127389127520126520126519125518126518127518127519128520128528127529127527127527127527128527128528128529128361127361000000127361127360128360128361128362127399127400127399127398128398129398128398128400128524127524128523128522129522129522129523129524129403128403127403127402129403130403129403129404130575128576129574129573129574130574131575130576131341130340130340130339131339132340132340132340131421130421131421131420132420133420132420133420133460131460132458131458133458133458000000133460132552131552132552131550132550133552134552132553134549132548133548133547134547134548133548135549135513134513135513133512135511136513135513137513137383137383136382136381137381138381138382138383138573137572137572137570137571137570139571139573138454138454139452139451139452139451139453140454139533138533138532138531139531000000000000000000139459139460139459138457139458141458140458140459141521141520142520142519142520142519143521144521143371143372143371143370000000144369145370143371145416144416143416142415144415144414145416145417145393145393145392145390145391146391146392146393148384146384147384147383148384149383149384149384))
 (.node 1 (.leaf 146518146519146518147517147517147516149516147519149462147462148460148460148460148459150460000000150336150337150336149334149334150335151335150337149431148432148431148430150431151429150431151431151561150561151561151560151561153561153561000000151349151350150348150347152348152347153349153350152350150350151351151350151349153350152350153350153367152366152366152365153365154365154365154367153326153327000000000000000000000000000000154326153387152387152386152385153385153384154386154387154368154369154367154367155367156367156368155368154393154394152393152392153392154392154393154394156390155391155389155389156389157389157390157391156444000000157443156443157443157443157443157443158399158400158399158399159398160397159398160399159431157432157431157430158430160429159430160431162358160357161357160357161357162357162358163358161420161420161419160418161418162418161418161419162210161210160210162210162210162209162210163212162356161356162354161354162354164353163355163356162380162381162380162379163380163378163379162380162397161397161396160395161396162396162398162398164212162213162212163212164212165212164212164212166457166456166455166454166455168454168455167457000000169353169352169351000000000000000000000000170450168451169449169449169449170449170450171450170433000000171432170432171432172432173432173434172224171224172223170222172222173222173223173224173444172444172444171444171444173444174444174444173409173410172408172407174408174407174408174409177393176393176392175392176392178391177393178393177409177409177408176407177407177407178408178409)
 (.leaf 178237178237178237178236179236180236180237179237179227178225179225178225179225180225180226180227179426177427177425177425179426180426179426180426180445179445179444178443179443180443181444180445180397179397179396180396181395181395180397180398181380180380181380179379182378181379183380181381182220182220182219182217182218182218182218182219185219182219182218182218184218185218185219185220000000000000000000000000000000185270185271185272185245185246184244185244185243186244186244187244186397184398185396185395186395187395186396187397187254186255187254186253188253188252188253188254188406186406186406186405188404189404188406189406187411186410186409187407188407188408188409189409189204189205189204190202190203190202191202191205190274188275188274189272189273190274191275190274190240190241189239190239190238191238191239191240190394189394189393189392191393191392191393191394190405190404189404190402191402191403191404192404191417191419189417191416191415192415191416192419192224190223190223190222192222192222192222192224195227193227193226193225195225196225195225195227000000000000193438193437195437195437195437000000195404194404194403194402195402196402196403196404196244195244195243195242196242197243198242198243198246197246197245197244197245198245198246198246199255198255197255197254199255200253199255200255198263198263197263198263199263200263199263199264199388199388199388198386200387200386200387200388200211199211198211198210199210200210201212200211200229199228200228199227201227201227201227201228000000000000000000000000201440202440000000000000))))
 (.node 4 (.node 2 (.node 1 (.leaf 202259201259201258201258202258203258203258203259203417203418201417201417202416203416203417204417204232204233203231204230204230204231204231204232209405209406209405208405210405210405210406211406209420209420209420208420209420210420211421211421000000208431210430208429211429212429210431210431210272209272209272211270211271212269213270211272211417210415211415211414211415211414211415213416212233210233210232210232211231212231212232212234212234212233211232211231212231213231213232213233214386214386212385212385214384214384216386214386215400215400215398215397215398216396215398216400216225215227216225215225217224218223218225217225216408216407216406216406216406217406217407216407216625215626216625216624217624218624217624217625219244219245219243219243000000221243220243220244220262218261218260217259219259219260219261220261000000000000000000221429222429222428222430000000224421223421224419224418224419225419224420224420224609224610222609223607224607224607224609225609226639225637225637225637225637227635227637226639226238225238226237226236227236227236228237227238229587228587229586000000000000000000000000230587231240230240229239230238231238232238231239232240231638230640231637231637232637233637233638233639233401232401233401232401234400235400234400234401234643233643233643233643233641235642235643235643235633234633234632233632234632236632235633235634237234236234236233236233237233237233238233238234236248236249234248236247236246238247237247237248236409236409236408236408237408238407237408238409237655237656236654237654238654239653239654239656)
 (.leaf 239408238408238407238406238407240406240407239409238612238611239611239610240610240609241611241612241627240627240626239626241625242625242626242627241609241608240608241606241607242607242608243609241621241621241619240619241619243618243620243620243255243256242256241254244255244255000000000000247226246226247226247226247226248226249226248226249650247650248649248648248648250648250649250650257229257229256228257226257227258227258228259229258228257228257227000000258226259226000000260228267229266229266228265226267227267227269228268229274227000000000000273225274225000000275224275227085187084186084186084185084185085185085186085187015297015297015296015295015295000000000000000000000000000000000000000000000000016271016272016273015274000000000000000000000000016272016273016274015275014275000000000000000000016273016274016275016270000000000000000000016268017268017269017270017276016276016275016274017274018274018275018276017277016277016276016275017275018275018276018277019241019241018240018239018240019240019241019241018278017278017277017276018276019276019277019278018279017279017278017277018277019277019278019279018280017280017279017278018278019278019279019280018281017281017280017279018279019279019280019281018282017282017281017280018280019280019281019282019286018286018285018285019285021285020285020286021296021296021295021294021294021294022295022296021298021298021297021296022296022295022297022297030565029565029564028563030563030563031564030565031261031262030260030259032260033260032260032261031555031555032554031553032553033551033552033553))
 (.node 1 (.leaf 31576031573031572032574000000000000000000034576000000000000000000034574034576035577034577036299036298036297036297036297038297036296037299038542038540037539037538037539038539038540038541038553037551038550038550038551039549039550039551038586037584037583036583038584039584039585038584038538038539038536037536039537040535041536040537041055039055040052040051041053041052042052042055041106000000000000040104041106043105042107041107040669040670040669041667041668042668041668042668041103040102041103041100042100043102042102043102042270042270041269041268042268043268043269043270042568041568041567040566041567043566043569043570000000043296043295042295000000000000000000000000043585043584043583042583043583044583044584043584043650042650042649042648043648044648044649043650044689042688043687043687043686043686043688043688044036044036044035044035044034045034045037045038000000043515000000000000000000045515044515045517044565043565043564044563044563044563045564044563044584043586043585043584044584045584045585045586044603043603044602044601044601046600046602045603044630043630043629042629043629045630045631044631044684043684043683042682043682045684044684045684045076045077044075044074045074046074046075046076046542045542044541044540045540046542047541046542046037046038045038045037000000000000000000000000046093044092044090044090045090047091046091046091046128045128044129045128045127046126047127048130046213000000000000000000000000000000047212047213046478046479045477045476046478047476047477046478047409046411046408046407047407000000000000000000)
 (.leaf 48048048049047049048047049046049046049047049048048122047122047121047120048120049120049123049124000000000000048279048278048279000000000000000000000000048409047407048408000000000000000000000000048524047524046524046524048524048524048524049524047646046645046645047645048645049645048645049645048678046678046678047678047678049678048678048679049150047149048149048146049148050148050149050150050599048599048598049598049599051598051600051600049704048704048703049701049702049702050703049704050451050451048450048449049450051449051452050451050560049562049561049560050560051558051559051560050590049590048588050588050588051588051589052590051067050067050066050065050065051066051067051068050157050158050157051156051156051155053157052158051475050475049474049474051475052475051475052475052578051578051578050578050578053578053579052578053086052086052085052084052085054084054085054086052158052159052158053157053157053156053157053157053491051490052490052489053489053488054490053490054086053086052085052085054084054085054085055086054141054141054140054140054139055139055140055141055663053663054661054660054661055661054661055661055163054163053161054161055161057160056162056163055693054693055693054693055691056691056692056693056043056044054043055041056041057041056042057045056460055460055459055458056460057460057461056461056556055556055555056555056554056554057555057556055576055575054576055575056575057575056575057575058419056417056416057416057417000000000000058419057516057516055515055514057514058514059516059516058426058427057425058425059425059424059425059426)))
 (.node 2 (.node 1 (.leaf 59137059138058136058135059135059135060136060137059169058169058168058167059167061167059168060169058449058450059448058446059448060446061448061449058499057497058498058497059497060497059497060499059557058557059557058555058555061555060556061559059602059601058601059601060601060600061602060603061619059620060618060618060618061618061619061620060112060112060111060110061110061110061110061111061140060140059140061140062138062138061139061141061473059474061473060473062472063472062472062473061634060634061634059632061632062632063634062634062530062531062530061528063529063528063529062531062617061617060615062615062615062614063614062617064491062489063489063489063489065489065489065491063630062630061630062630062628063629063630064630063437064438063437063436063435065436064436065438065459063458062458063456064458065458064458065460064553063553062553062552064551065551065552065553063605062605062603062602063602064603065602066604064222063223064222064221064221065219065221066221065494064494064493064492065492065492065493065493064575064576063575064574065574065573065574066576066154066155065155065154067153068153067153067156065541065540065539065538066538067540066540066541067121066119066118067119067119067119068120067120067529066529066528065528067527068527067529068529067134066136067135066132068134069134068134069134068146068145067143068143069144069144068144069144068413066413067412066411067412069411069414069415067492066492066492067491068491068491069490068492068566067564067563066562067563069564068564069564069205000000000000000000000000070203070204069205)
 (.leaf 69404068406069404068402069402070402070403069404070472068471068470068469068470069471069471070471070510069509067509068509069507070507070508071510069593068593069592068591069591070591069593070593069182069183069182069181069181071181070181070183069189000000069189069188070188070187070189072190070442070442070441071440071440072440071440073441073141071141071140071139072139073139073140074141072206072206071207071204072204073204072206073206073192073192072191072190073190073190074191074192073239072239072238072237073237073237073237074237073381071382071382072379072379074379073381073382072389000000000000072388072388074386073388074388074573074574074573072572075572076571075572075573075203074203074202000000000000000000076202076203075399074401074398074397075399075397075400076401075527074527073527074527075527076525076526076527076617075618074617075616075616076616077616077616077162076161076160075160076160077160076160076161077189074188074188075187076187076187076188076188077422076421076421075421077421078420077420078421076470076470076470076470076468078468077469076471076546075548075545075544076544076545077547077548077115076115077115076115077115078115078116079116077204076204076203076202077202077202078203077204077422077422077422077421077420079421078421078422077493077494076492075492076492079491077493077494078142078142078140078139078140079140079141079142079499077499076498077499079498079497078499079499078591077591076591076591078591079591000000078591079598076600077599077598078598079598078598079598079169077169077168078167079167079168079169079170))
 (.node 1 (.leaf 79375079376078374077373079375080375079375080375080162079162080159080159080160080160081161081162080445080444079444079441080443082441081444082444080572078573078572079572080572080571080572081572081165080165079166080165081165082165081165082165080569080569080566081567081567082567082568082569082123082124082123081123083122084122084123083123082527080527081528080526082527082527082527083527081546081546000000081546081545083546082546083546083392082392082391081388083390083389083390083391083589000000082588082587083587083586083587083588084144083144083143083142084142085142085143085144084496084497083497084495085495086495085495085496084629082631082630083629083629084629085628084630085358085358085358084356085356087357085357085359085150085151084149084149086149086149086149086150086421086421086419086418086419088419088419000000086509086510086509086509087508088507087508087509088193087193087192088191088191088191088191089193089207088206088206088205088205089205089206089207089609087607088607087607088607088607089608089609090401090400089400089399090399090398091400090400090503090503090502090501090501090501090502090503092177090176091175091175091176092176092177093177092516092517090515092515092514092515092516093518092128092127092126091126092126094125093127093127094607093607093607093607093607095606095607095607000000095562095561095560000000096561095561000000097158096158096157097155097156098156098157099158097342096342000000000000000000000000000000098342097533096531097531096531098531098531098532098533098431097431097430097429098429098428099430098431)
 (.leaf 98503098503098502098502098501099501099502099503099477097477097476099476000000100475100476099477099532098532098531098530099530100530100531100532099542098542098541099541000000099541099542099543000000099459100457100457100457101457101458000000100518099518099517099514100516101516100516100518100536099536099535099534100534101534101535101536101169101169099168101166101167101166101168102169101342101343100341000000000000000000102341102342000000000000000000101598000000000000000000000000103195102195102193101194102192103192102194103194102479100479101478101477101477102477103478102479102595102595101594101593102593102593102593103595105140104139104139103139105138105137105138105139103162103162103161103160104160105160106161105162104437104437103438102436105436105435106438106438000000105346105345105345106344000000000000000000105497105498105496105496105495105496105496106497105482104482104481104480105481107482106482106483107163107163107162107161107161108161109162108163108168106168107167106166107166108166108167109168108184106184106183106183108184108184108184110185109511108511109511108509108510110511110512109511000000110372111372110372111372111372111372111373111562110562111562110560110561112562112563113564000000000000000000000000000000111600000000000000112169112168111168112166112167114166114166113169112375111375111374111373111374112374112375112376113449112449112448111448112448114448113449114449113598112598112597113596113596113595113596114598115556113556113555114554115553116554115553115554114147000000000000115146116144117145116147117148)))))))
 (.node 32 (.node 16 (.node 8 (.node 4 (.node 2 (.node 1 (.leaf 117157115156116156000000117155117155118156119156117510117510117509116508118508119508118509118510118585115585117584116584118583119583118585119586119167118167118166117166118166120166119167120167118488117488118488118487119486118487118487119488120502119502119502119501120501121501121502121502120168120167119167120166121165122165122166122168120455120455119454119452121453121453121453122455121538121537121536121535121536123535121536122536122556121557121556121555122554123554123555123556121564121562121562120562122561123561123562123563122568120569121567120567121567122567122568122569121411000000121411121410121409122410122410123412122585120586121586121585122585122585122585123585123340123340121339122338123338124338124341124342123500123500123499123499123498125498124499124500125559124559124559124558125557126557126558126559124390000000124390124389125389127389127389126391127361125359126359125359127359127359000000127361127361127362127361127361127361127360127361128361126400126401126400125398127399127399127399127400128521127521127520127519127519128519128520128521128530127530127529127527127528128528128529128530128403126404126403126403127402129403128403129403130576130575130574129574130574132573132575132575132340131341131340131339132340132340000000132340131421130421129421130421131421131421131421133421132461131461131460132458132459000000133460133461132553132552133552132550133552135551135552134552135551134551134549134549133548134548135550136550135512135513133512133511135510135511136513135513138383137383137383136382137382138382138383139383)
 (.leaf 137572138573138572139571139572000000000000139455137455138454139452139453139453140454139454000000000000138533138532139532000000000000000000139460139461139460139459140459140458140459140461143521141522141521143521143521145520144522145523145418145417145416145416145416145415145416147418146393145393146391145391146391147391147392146393148520146520146519146518147518149516147519148520149463147463147462148460148461150460000000000000148432147432147431147430148430150431149431149431150335150336149334148334150333152333150335151335151351151351151350150348152349153349153350152350152365152366152365152364153364154364154365154365153387152387152387151386152386152386153387153388000000151561152561151561153561000000000000154562155368154368155368155367156367157368157368156368159398159398159398159396159396161396161397160398159430157431157430157429159430159430160429159430161421161421161420161419161419161418161419161420162213161214161211162210163212164212163212164212162356162357162356163355163355164355163355164357162380162380163380163380163378163378163379163381167457166457167455166455168454169454169455168457171450170450170450170450170450172449172451172451171224170224171224172223172223173223173224172224172408171408171407171406172406173408174408172408173434170433172432171432172432173432000000173434174444173444173444171444173444175444175444175444178393177393177392176392178391179392179392179393177408177408176407177407176406177407177407178408177427177426177425176424177425179426178426179426180237179236179236179236180235181236181236181237))
 (.node 1 (.leaf 180445179445179445179444179444181444180445000000180227179227180225179225180225181225180226181227181379181380179379000000181377182377181379183380183221182220182220182219182219182218182219183221185221185220185219185219185219187218185220185221184246184247185246184245184244185245185245185246185396184396185396185395185394186394186395185396186255185254185252185251186253188253187253187254186410185411185410187408187407188407187409187411188405186406186405187403188403188403189404188406189205189205189203187202190202190203189203189204188275187275187274187273189272189273189274190274189394188394188393188392189392191393190393190394189404188403188402189401189402190402191402190403191416189417191416190414191414191414192415191416191224190225190223190223192223192222192224193225195228194228193227193226195226195225195227195228194404194403193402193402194402195402195403195404000000000000000000193438195438195437000000000000195244194243194243194242195242196242196243196244198245197245197244196244198243199243198245198246198255197255197254196254197254199255198255199255198263197263196263197263198263199263198263198263199388197387197386000000000000000000200387198387199211199211197210197210198210199210199211200211000000000000000000000000000000201440200440000000200229199229199228200228201228201227201228201229201259200260200259201258201258202258202258202259203416201417201417202416203416205416203416203417209272208272209272208270211270211271210271210272211406209405210405210405210405211405212405212406211421209420210420209420210420211420211421211422)
 (.leaf 210232209233209232210230211230211230211231211232211418211418210415211415211416211415213416211418210431211429211429211427211427213428212430213430211232210232210232211230211230212231212231212232214385212385212385212384214383215383214384216386215401215400215400215398215399215398216400215401215408215409216407216406216407217407216407218408215626000000215626215625216625216625216625216626217225216225217225217224218223218223218224218225219260218260217259218258219258219259219260219261220243220243000000219243220243221243221244222244000000000000000000000000000000221430000000000000224422224422223421224419224420224420224420224422224608222609223607222606223607224607224607224609227639226639226639226638227637228637227637228639227239227239226238227237228237229237228238228239230241230241230240229239230239231239232240232241233639231638232638232637233637234637234637234639234400234400234400233400235399236399236400236400235643234643234643233641235642235641235642235643236634235634235633235633235633236633236634000000238235237235237234237234238233239234238235238236237247237247236246237246238246239246238246238247238409236409237409237408238407238407238408238409239654238654238654238653239653239652239653240654239610239611239610238610240609241609240609241611241628240628240627240626240627242626242627242628243610242609241609242608242608243608243609244609243620241621242619241619243618000000000000000000000000243255244255244255244255244254000000000000248226247226248226247226248226249226250226249226249649248649248648248647249647250647250648250649)))
 (.node 2 (.node 1 (.leaf 257230257229257229256228257228258228259229258230259229257229257228257227258227000000260228260228000000265230265229265228266228266228267229000000275228000000274227275226275224275224000000000000085187084187084186084186084186085186085187085188089481089481089480089480000000089480089480089481014275000000000000000000000000000000015274015275015298014298015297015296015296000000000000000000000000000000000000000000000000016268016269016270016276015276015275015274016274017274017275017276016277015277015276015275016275017275017276017277018240016240016240016239018238018238018240018240017278016278016277016276017276018276018277018278017279016279016278016277017277018277018278018279017280016280016279016278017278018278018279018280017281016281016280016279017279018279018280018281017282016282016281016280017280018280018281018282018286017286017285017285018285019285019285019286021297021297021296021295021295022295022296021296030564029564028563029562030562030563030563031564032261031261032261032260033260033259032260033261033555031556031555032554032554033552033553033554034575000000000000000000034573035575034576035577036300036299036298036297036298036296037299037300037539037538036538037538038536038538038538038539038554037552037551038550038552039550039551039554037587037587037584037583038585039585038584038586000000000000000000000000040104041106040106041106041056040056039055040052041054042052042055042056040670039669040670040669041669041668042668042671042103041103040102041103042103042102043102043103042269041269041268041267042267043267043268043269)
 (.leaf 43586042586043584043583043584044584043584044584043629042631042628041628044629044629043629043629043651043651042650042649043649044649043650043651043687043687043687042687043685044685043686043688044035044035044035044034045034000000045034045037043565043566043565043564044564045564044563045564044604043604043603044602044602046602045603045604044683043683042682043681043682045683045684044684045075044075044074045074045073046073046074046075045541044541044540044539045539045539046542047541046036045038045037045034000000000000000000000000046090044090044090045090046090047090047091046091046127044129045128045127047125048125046126047127047477047477046478045475048475048475048478047479047524046524046523045522046524048524047524048524047646046646046645045645046645047646047646047647048047047049048047048046049045048046049046049047048121047121047120047119048119048119049120049123000000047409048409047407000000000000000000000000048677046678047678047675048677048677049678048678049151048149047149048149049149050149050150049150048450048450048449048448048449049449049450049450049705049704048704048703049703050703049704049704050159048158048156048156050157050157050157051157050475048475049474048473049474051475050475051475049591049591049590048588050589051589052590051591051600050599050599049599051598052599052599051601051066050066050065050064050065051066051066051067052085050085051084051083053083053083052085052085052160050159051157050157052158052158052158052159051490050490051490050488052489053489052489053491052578052578052578050578053578053578053579053580))
 (.node 1 (.leaf 54085052085052085053083054083055083054085054085054140054140054140054139054138055138055139055140054664053664053663054661054662054661055661055664054163054164054163053161055162056162056163056164055460055461054461054458055458056460055460056460055692055693054693054692055690056690056691056692056042054043055041055040056040056040057041056042056555055555056555056554056553057553056554057555056578055576055575054576056576056575057575057578057515055515055514056513057513058513058514059516058136057136058135057134057134058134059135058136058420057420058419058418000000000000000000000000059170059170058169058168059168059168060169060170059425059425059425000000059423059424059424060425060451058451058450059448059449061448061449060451058499058498057497058498059498059497060499059499059556059557058555058554059556059556061555060556059621057620059619059619060618059619061619061620060112059112060111059110060110061110060110060112061139059140061140060137061137062137062138061139061472061473060473059472061472062472063472062472061633061634059632060631061631061632062632063634062618061618061617060615062616063614062617062617064438063437063437062436063436063435063436063437064491062492062489063489063490065489065491064492063529063529063529063528063527064527064528064529062605062603061603062603062602063602063603063605063629061630062630062629063629063629063629063630063223062222062221062220064221064221064221064222064552062553062552063550064550064550065551065552066461065459065459065459064458067458065460066461064576063577064576063575065575065574066576065576)
 (.leaf 66529064530065528064527065528067527066529067529065541064542065540065539066541066540066541067541068122066122066119066118067120068120067120068122066136065136066135066132066132068134067134067134067156066154067154067153068153068154068155068156067412066412066411066410066411068410067412067412067492065493065493065492066492067492067492067493068147068146068145067143068145068144069144068147068563067563066562066562069562069563069564068564069183068183067182067180069181069181069181069182000000000000000000000000069189069189069189069190069204000000000000000000000000070202070203070204069403069404068402000000000000070401070402070403069470068470068469068468069470069470069471069471069508067509068509068508069506070506070507070508069592069592068591067591068591069591070591069593071441070443070442070441071441071440073441071441073141071142071141071140072140073140074141073142072205071207071204071203072203073203073204072206071390000000000000000000000000072389072389073389000000000000072239072238073238073237074237073240073380071382072379072378072379074378074379073381074193073193073192074191074191074189075192075193074401074400073398074397074397075399074399075399074527073527073526073525074527075527074527075527075202074202000000000000000000000000000000076202077162075163076161076160076161076160076161076163077189076190074188074188076188076188076188077190076469076470076470075467076467077467078468077469076545075545075544074544075544076544076545077547076617076618076617076617077616078615077616077617077203076203076202000000000000077202077202078203))))
 (.node 4 (.node 2 (.node 1 (.leaf 78421077422077421077421078420079421079421078421077492076492075492076492077490078490079491077493077591076593076592076591076591078591077591078591077599075601075600075599077599077599079598079599079117078117077115078116078116079116080117079116078143078143078142078140078141079141079142000000078374077374077373076372077373080373079375078374078421078421077420078420079421078420080422080422078498076498077499077496079497000000079497078499079168077168078167078166078167079166079168079169080163079163079162080159080161081161081162082163081446080444080444079444080444081444082444082444080527080527080526080525080526082527081527082527081546079546079545079545081546081545081546081546082569080570080569080566081568082568082569081570083123082123083123083122084122083121084122084123083393082393082392082391083391083390083391083393082590082588000000082588083588083587083588084590084145083145083144083143084143085143085144084144085357085358084356084355085355000000087357085357085495085495085495085494085493087494087494086495085152084151085151084149086150086149086150087152000000000000086421087420088419000000000000000000087508087508087508087507088507000000088507088508089194088193087193087192088192088191089193090194088208087208088206088206088206089206089207089208089609087608087607088607088608089608089609089610090502090502090501090500090500090500090501090502092126091126091125090125092126092125092126092126092177091177092177092177092177093177094177094177092515090515092515091513091513092514092515092516095607094607094607093607095606096605095606095607)
 (.leaf 98159096159096158096157097157098157099158099159097431000000000000000000097429098429097429098431097534096532096531097531097532098532098533098534098502098502098502098501099500099500099501099502099476097476099476099474099474100474100475100476099533098533098532098531099531100531100532100533100519099519099518099517100517100516100518100519101536100536099536099535100535101535101536100537101170101170101169099168101168101168102169103170000000000000000000101458101458000000000000000000000000101595100595101594101594101594102595000000102193102193101194102192102191103191103192102194102341102341000000000000000000000000000000000000102478101478101477101476102476102476102477103478103163102163102162102161103161103161103162104163105138105138105138105138106136105137106137106140106438105436105436104436106436106436107436107438104481103481103480103479104480105481105481105481105496105496105496105494105494105494105496105496106184107185105183105183106183108184107184108184109164108164107163108162109162110161109163110164109511106511108509107508109508108509108510108510111562109561109560108560109560112561110561110561111375110377110374111374111373111374111375112375112170112169112168111168112168114166113169113170114449113449113448112448114448000000115448114450114598112599112598112597113597113596114598115599114557114556113556113555114555115553115554116557117148114147116146116144117145000000000000117148117509117509116508117507118507119507119508118509119157117158117157118156118156120156120157120157118487118488118487117485118485119485118487118487))
 (.node 1 (.leaf 118587117587118585118585118585120584119586119587119169118169119167119167119167121167120168121168120455119455118453118452119452121453120453120455121502120502120502120501121501122500121501121502122169121168120168121167122166123167000000000000000000120410120409000000121410121409121410121411121539121538121537121536121537121536122536121538121570120570120569121567121568122568122569122570123557122557122556122556123555124556124557124558123563121564122562122561123561124562123563124563123339121339122338000000122337124337124338124341124499124499123498124497125498126498125498125499124391124390000000124390125390127389126391127391126559125559125558125557126557127557127558125560126402125401126401126400127400127399127400127401126404125404125403126403126403127402127403128403129522128522128521128520128520128519128521129522130421128423000000129421130421131421130421131421132577130577130576131575132575132575132576132577132340132340132340132340132340133340132340132340133462133461132461133460133460134460133460134462134552132553134552133552135551136551136552136553135511133512133511133510135509135510135511136513136550135551135549133548134548135548136550137550137385137385137383137383137383138383139383139383137456137456137455137454138454138454139455138455139461138461139460137458139459140459139459139460000000000000000000138533139533000000000000000000000000000000000000139573000000000000000000000000145523143521144521143521145520146520146522146523145419145418145417145416145417145416147418146419146394146394145393146391146392147392146393146393)
 (.leaf 146520146520146519145518146518147518146518148520147432146432147430146430147430148430148431148432149334148334148333147332149332149332150333149334000000148464149463149462000000000000000000000000151351150351149349150349150348152349151349151351154365152365153365153364154364154365155365155367154562000000153561153561000000000000000000000000156368155368156368156367157368156367157369158369157431157430157429156428157429159430158430159430161397160397159396159395160395160395161396161397161214161214161211161210162210163212162212162213163358162358162357162356163356163355164357163358163379163380163380163379164378164377163378163379168457167457168455168454169454170454170455000000172451171450171450170450172449173450172451173451171224170224170224171224172224173224172224172224172407171407171406171405172405173407173408174408173434173434173432172432173432173432173432173432175444174444174444173444175444176443176444176444178394177394177393177392177393179392179393179394177425176425176424175424176424177423177425177425180228180228179227180225180226180226181227181228181237180237180236180235181236182236182236182236183221182221182220182220182220182219183221183222181379182378181377000000000000000000000000183378185222183222185220185219185220185220185221186222185395185396185395185394186393186393186394186395185411184410185410184408187408187407186409186410187275187276186275187272187273189272188274188275188404186405187403186402188402188402188403189404189206189206189205189203189204189203189204189206188394187394187394187391188392189392189393189394)))
 (.node 2 (.node 1 (.leaf 191415191416190414190413191413191414191414192415192226190225190225190223192224192224193225193226194403192404193402192401193402194402194403194404194229193228194228193227195227195227195228196229194243193243193243193242194242195242195243195244197245196245195245195244196244198243197245198245197255196257195255195254196254197254197255198255197263195264195264196261197263198263197263198263199211197211196211197211197210198210198211199211198386197386000000000000000000000000000000200387200260199259200259200258201258201258201258201259201417200417201417200414202416203416202416203416209272208272207272208272209272209272209272209272209233208233208232208231210230211230210232210232211407209406209405210405210406212405212406212406210232209232210230209230210230211230211230211231211419211419211418210415211417213416211418211418213430210431212429211427213428213429214429214430214384212385212384000000000000000000215383214384215402214402215400215400215400216400215401216402215626214626215626215626215626215626215626216626217408215410215409216407216408216407218408217408218225217225218225218223218223220224220224218226219259217259218258219257220257220257219259219260222244220243221243220243221243222243222244223244225423224423224422223421224421224420224422226422224607223607222606222606000000225607224607224607227639226640226639226639226639227637228639227639228240227240227239226238227238228238228239229240232242230242230241231240232240233240233241233242234639233639233638233637234637235636234637235639236400234400235400235399236399237398236399236400)
 (.leaf 236634235635235634235633235634236634000000236634235643235643235643235642235641236641235643235643237408237409237408237408238407238406238407238408238236238235238234238233239234240233240234240235238247237247238247238246239246239245238246238248239653239653239653239652240651240651239652239653241611239610240610240609241609242609242611242611242628241628241627240627242626243626243627243628243611243610243610243609243609245608245609245610000000243621243620243620000000000000000000000000248648248649247647248646249646249646249647248648249226248226249226248226249226250226251226250226258230257230257229257228258228260228260228259230000000000000265230265229266229267229000000000000000000000000000000274227275227000000000000000000085189085188085187085187085187085187085188085189015299014299014298015297015297000000000000000000015276014276014275000000015274016274016275016276015277014277014276014275015275016275016276016277016278015278015277015276016276017276017277017278016279015279015278015277016277017277017278017279016280015280015279015278016278017278017279017280016281015281015280015279016279017279017280017281016282015282015281015280016280017280017281017282018239016240016239000000017237018238018238018240017286016286016285016285017285018285018285018286021298021297021297021296021296022296021296021298030563028563029562029561030561030561030563030563031557030557030556031555031555031555033555031556032260032261032260031258033259033258033259032260034574000000000000000000034572034572035575034576036301035301036299036298036299037299037300036301))
 (.node 1 (.leaf 38539037539037538036538038539038538038539038540038555037553037552037551038553039551039554038555038586036588037587037584038586038584038586039586039669038671039668038667040669041669040669040670040056039057040056039055041055042055042056041056041103040103040102000000041103042103041103042103042268041268041267041266042266042266043267043268042631040629040629041629041628044629042629043629043587042587042586043584043585043584044584044587042682041682041682042682042681044682043682043682043686043687042687042686043684044684044685043686044034044035044034044032044032000000000000045034044565042566043566043565044565044563045564045565044605043605043604043603044603045603045604045605045074044074045074044072046072046072046073046074044090043091043090043089045090046090045090046090044129044129044128044127045127047125045127046127045540044540044539044538045538047539045539046542046524045524045523045522045522046524046524047524046645044646044646045645046645047645046645046645047476046478045475045475047474048474048475048478046678046678045678046676047678047678048677048678048120047120047119047118048118048119048119049120048449048449046449000000047448049447048449048449049046049046049045049045050044050044050045050046049152048152048149047149049150050150049150049150049474048474048473047473049474050472049474049474049706048706049704048704049704049704049704049705050065049065048064048064050063051063050065050065050160048160048158048156050158050157051157050159050592049592049591049590050590052590051591051592051602050600051600051600052599052600052601052602)
 (.leaf 52084051084051083051082051082053082053083052085051161050159050159051157052159052158052159052159051491050491050490051490052490052489053491052491053581053580052578053579053579054579053579054581054084052085053083053082054082055082055083054085054139054140054139054138054137055137055138055139056165053165054164054163055163056163056164057165055459054461054458055457055457055458056460055460055576053576054577054576054576056576055576056578054664053665054664055663055661055661056662056665055691054693054692054691000000055689056690056691056041055041055040056039057039056040056040057041056554056555056554055554056552056552057553056554057514055514056513056512058513058512058513058514058135058135057134056134058133059133058134059135058421058421057420058419058419000000000000058421058451057449057448057447059448059449058449060451058555057555056554057553057553058554059556058555000000058171059170058169059169060169060170000000059424059425000000000000059422059422059424059424059622059621057620059619059620061619061620059622059112059113059112060111060111060110060112060112061632059632060631060630061630062630061632062632062472061472062472061472062472064470063471063472062603061605061602060603062603062602062603062605062619061619061618061617062617062617062617062618062630061630060629061628062628063626063629062628063437063437063437063437063437063436063437064439063528063529063528063526063526064526064527064528063224000000062222062221064222064221064222064223064493063493064491064491065491065491065492065493064551062552063550063549064549065549064550065551)))))
 (.node 8 (.node 4 (.node 2 (.node 1 (.leaf 63577062576063576063575063575065575064575064576065462065461065459065459065460065460066461067462064542063541063540063540065539066541065541065541066411064412065412065409066409066409066411066411065493065494065493065492065492066492066492067492068122066123066122066119067121067120068122068123066137066137065136066135067135067134067134068137067153067154067153065152068152068151068154068155068148067146068146068145068146069144068147069146068470068471067469067468068468069470068470069470068183068184068183067182069182069181069182070184069402068402000000000000000000070400070401070402069507068509068508000000068507069506070506070507069591068591067591068591070590069591069591070591069443068444070442070442070442070442071441070443072204071204071203071202072202073202073203073204072379000000071380071377072377073377072379072379074143071142073141073141074141000000074142074143072240000000000000072239073239074237073240074241073527072527072526073526073525074527073527074527074194073194073193073192074192075192075193075194074398073398074397073396073396075396075399074399076468076470075467075466076466076466077467078468076492074493075493074491076492077490076492077492076544075544074544074543076544077542076544076545076593076593075592074590076591076591076591077591075601074601075601074600075600076600077599077600077162075164077162077162076161079162077162078162077191075191077189077189076188078189078190077191077202076202000000000000077200077200077202077202077373076373076372075371076371077372077373077373077420077421077421077420077420077420079421079421)
 (.leaf 77616077616077616076616078615079615078615078616078144077144078143078142078142079142000000079144079116079117079116078116079116081116080117081117079167078167078166077166078166080165079166079168078499078498079498079497000000079497079498080498080164078163079163079162080162081162082163081164080445080446080444080444080445082444082444081447079571080570078570078569080569080569082569080571081528080528080527080526081528081527082527082528083394083393082393082392083392083391083393084394083591083590082588000000083589083588084590084591084123083123084123084122083121085121085122086123084146083146083145083144084144085144084144085146084151083152084151083149084149086150085150085152085356084356084355000000000000000000000000087357086495085495086495085493087494088494088494087495088209089208088208089207089207089207091207089208088611089610089609089609089609089608089609089609090501090501090500090499090499091499090500090501091126091127089126090126090125092126091126092126092514092515091513090513092514092513092514092515094177092177093177092177093177094177094178095179095607095607095607095606096605097605096606096607098160096160096159096158097158099158099159098160096431000000000000000000097430097429098431098432098535096533096532096531097533098533098534099535098501098502098501098499099500099499099500099501099534098534098533098532099532100532100533100534099520099520099519099518100518100518100519100520101171101170101170101169101169102169103170103170101477099477100476100475101475102475102476101477102192101194102192101190101191102191103191103192))
 (.node 1 (.leaf 102595102595103595000000000000103164102164102163102162103162103162104163104164103480102480102479103478103479104479104480104480105137105138105138104137106136107136105137106137105435105436104436104433105433107434106436107436105495105496105494105493105493106493105494105496105183104183105182105181106181107181106183106183107165107165108164107163108163109163110164109165108509108509107508108508108509109507108509108510110560109560108560109560110560112559112561110561111374110374111374110372000000111373111374111375112171111171112169112168112169113169113170113171114450113450113449113448113449115448114450114451113600111600112599112598113598114598115599114600115558114558114557115556115554115554117556117557116149115149114147116146116147000000117148118149119508118508118507118506119506119506120507120508120157119157119156118156120156120156120157121158120456119456118455118454118453119454120455000000118487119486118485117484119484120484120485119487119588118588118587119586119586121585120587119587121168119169120167119167121167122166122168122169121413119412120410120409121411121410121411122413121540121539121538121537121538122536121538121538000000000000122169122168000000000000000000000000123338122338000000000000123336123337124337124338124558123557123556123555124556125555125556125557124563123563123562123561124562124562123563125563124390124391123391124390124390125390124390124391125498125498125498124496126496127497127498126498125401125402124400124400126400127400126400126402125404124404124404125403126403126403126403126404)
 (.leaf 125560126559126558126557127557128557128558128559129523128523128522128521128521128521129522129523128423127423129421129421129421130421129421130421132577132577132575132575132575133575134576133575133463132463133461132461133461133460134462134463135510133511133510134508136508137508135510135511136551135551135551135549135550136550137550136550136553134552135552135551136551136550136551136552137457135457136456136455137455137455137456137456139383137385138383137383138383139383140383140383139462137462138461139460139460139459139460139462144522144522143521144521144522146522146523146523000000144420145418145417145418147418146419146420146395146395146394145393146393146393146393146395147521146520146520146519146519146518148520147521146432000000000000145429146430147430147431147432148334147334147333147332147332149332148334149334150350149351150351149349151350151349151351152350157430156430155430156428156428157429157430157431161211161212161210159210160210161210162210161211161396161396160395159394160395161396161396161396162358162357161357161356162356163356162356163358163378163380163379163378164377164376164377163378000000168457169455169454170454171454170454000000170224170224169224170224171224172224171224171224172406171406171405171404171404173406173407173408171453171453172451172451172451174450174451174452176444175444175444175444176443177443177445176444176424175424175423175422177423176424176424176424179394178394178393177393179392180392180393180394180229180228180228179227180227181227181228181229182236181237181236181236182236182236183236183237)))
 (.node 2 (.node 1 (.leaf 182377181377000000000000000000000000000000000000183223183222183221183221183221185220183222183223185223183223183222185220185221185221186222186223185394185395185394185394186392186392186393186394184411183411183410184410185410185410185411185411187276186276186275185274187272187273187274187275187394186394187394187391187391188392188393188394188403187403186402188402188401189401188402188403189207189207189206189205189205189204189206189206190225189226189225189223190223192224191224192226191414190414190413189413190413191413191414191414193402191403192401191401192401193401193402193402194230194230193228194228195228195228196229195229195264194264195264195261196261197263196263197263196211196210195210196210196209198210197210197210197244195245195244195243196243198242198243197245197254195255195254195253196253197253197254197255199259199259198259199259200259200259200260200260201417201417199417200417201417201417201417203418208272206273207273206271208272209272208272209272208233207233207232207230208231210230209232209233211230210230209230209229210230211229211230211230212406211407211406210406212405212406213407212406212430210431210431212429212430214429214430213430214383212384000000000000000000000000000000215383216403214403214402215400215401215401216402216403215410215409215409214408216407216408215408217408218224218225218223218223000000218223220224220224219258218258219257219257220257221256220257219259221244220244220243221243221244222244223244222244223607223607222606221605222606000000223607224607225423223424224423224422224422224422226422226424)
 (.leaf 227241226241227240227239227239228239229240229241227639227639227639226639227637229638229639228639233243232243232242232241233241234241234242233243235642235643235642234640235640236640236641235643238237238236238235238234238235240234240235239237238246238247238246238244238244240245239245238246238407238407238407238406239405239405238407238407239652239653239652239651239650240650240651239652240609240610240609240608241608241609242609242611243628242628242627242626243626244625244627244627245610243611244609243609245608000000000000000000248647247647248646247645248645249645249646249647250226249226250226249226250226252226252226251226260231259231258230259229260228260229000000260229000000000000000000000000275228000000000000000000086190085189085188085187085188085188085189086190014276000000000000000000000000015274015275015276014277000000000000000000014275015275015276015277015300015299014299014298015298000000000000000000015278014278014277014276015276016276016277016278015279014279014278014277015277016277016278016279015280015279014279014278015278016278016279016280015281015280015279014279015279016279016280016281015282015281015280015279015280016280016281016282016286015286015285015285016285017285017285017286018238016239000000000000017237019236018238018238021299021298021297021297021297021296021298021298030562029562029561029560029560030561030561030563031558030558030557030556031556033555031556033556032260032260033260033259033258033258033259033260034573000000000000000000033572035573034572035575036302036302035301036299036300037300036301036301))
 (.node 1 (.leaf 37539035540036540036539036538038539037539038539037587035587036588036587037587037587038586039587038556037556037553037552038554039554038555038555040102000000000000000000000000041100041103040102040672038671038671039668040670040669040670041672040056039057039057040056041056042056041056041057042267041267041266042266042265042266042266043267042628040629041629041628042628043628044629042629042566042567042566042565043565044565043565044565043588041588042587042586043586044584044587044588043681041682042682042681043681043681044682043682043685042687042686042683043683044683044684044685043091042091042090042088043089045090044090044090044606044606043605043604044604045604045605044606045034044034045034044032000000000000000000000000045073045074044072044071046072046071046072046073045128000000044129044128045128045127046127046128045539044539044538044537045537045539047539045539044646044647043646044645045645046645045645046645046523045523045522045521046523046523046524046524046678045678045677044677046676047678046678046678049046048047048046047046049045050044048046049046048119047119047118048118048117049119048119048119048448046449000000000000047446048447049447048449048475048475047474048474048473048473049474048475048153048153048152048149049151049150049150051152049593049592049591049591049591049591050592050593049707049706048706049704049705049704049705050707050064048064048064049062050062050062051063050065050491049490049489050490051490052490051490051491052602051602050600051600051601052601052602052603052162051160050159050159052160052159052159052162)
 (.leaf 53083053083051082052081053081054081054082054083053582053582053580052578053580053579054581054582054083053083053082053081054081055081055082055083054138054139054138054136055136055136055137055138053165053165054163053163054163055163054163056165055458054458055457055457056456056456055458056460055575054577054576053574055575056575056576055576055664054664053665054664055664056662056665056666055690054692054691000000000000055689055689056690056040055040056039055040056038057038056040056040056553056554055554056552056551056552056552057553057134056134056133056132056133057133058133057134057513056513056512056511057511057512058512058513059421058421058421057420058420000000058421059422058452056451057449057448058450058449060451060451058554056554057553056552057553059554058554059556000000000000058171059170059170060170000000000000059423000000000000000000060421060421059422059424058622058623059621057620059621061620059622061622059113058113059113059112060112060112060112061112061605060605060602059602060603062603061603062603061631060631060630060629060629061630062630061632062620061620061619061618062618062617062618062620061630060629061630060629062629063629062628063629000000000000000000000000062222063223063224063224063472062472063472062472064470064470064473063473063527063528063526062525063525063525064526064527064440063438063437064438063437065438065439064439064494063494063493064491064492065492065493065494064550063550063549063548064548064549065549064550064576063578062576063576064576064575064576065576064494064495064494064493065493065493065493065494))))
 (.node 4 (.node 2 (.node 1 (.leaf 65540063540063540063538065538066538066541065541065136065136064137065136065136066136066137066137066410065412065409065408066408067408066409066411066461066462065462066461066461067461067462068462067124067122068122068122068122069122069123068124068149068148067146068146068147068147069146069149068469067469067468068467068467068469069470068470068591067591066591067591068591070590068591069591069183067184068184068183069183069182070184069183071444068444068444070442070443071441070443070443072203071203071202071201072201073201073202073203072378071380071377000000000000073376073377072379074143071143071142073141073142074142074143075144073526072526073526072524072524074526074527073527074195073195073194073193074193075193075194074195074397074397073396072397074395075395075396075399074493073493074491000000074491076492075492076492075544074544074543074542074543076544075544076544075601073602074600073601075601075601075601076601075164074164074164075163077162076163077162077165076372075372074371075370076370077372076371076372076467075467075466074465077465077465076466077467075594075594076593075592076592076591077591077592077192076192075191077189077190078190077191077191078145076145077144078143078143000000079144078144078167077167077166076166077166078166078167079167079421077420078420077420077420079420078420080422078615078615078615078614079614079615080615079615079497079498079497078495079497080497079497079498081119079117079116080117080117081115081116081119080165078163078163079163080163082163081164081165080527080528079526079525080525080526081528080527)
 (.leaf 80572079572080570078570080570082569080571080571082447081447080445081446082444083446083446083446082592080591081591081590082588082590083591083592084394082393083393082393083393083393084394084395084122084123084122083120085121086120085121085122084147083147083146083145084145084144085146085147084153083152083152084151085151085150085152085152085355084355000000000000000000000000000000000000088494087494087494086492087492088492089494088494088209088210089208088208089208091207089208090210088611088612089610089609089610089609089609090610090500090500090499089498090498000000091499090500091125089126090126090125091125091125092126091126091513089513090512090511091513091513092514091513095179094177094177093177094177095177096178095179095606095607095606095606096605097604097605096606096432000000000000000000097431098431098432098433098535096534096533096532097534098534099535098536098161097161098160098159099159099159099160099161099500099500099500098498099498099499099501099501099535099535098534098533099533100533100534100535099521099521099520099519100519100519100520100521101476100476100475100474101474101474102475102476102191102192101190102190102189102189102191103191104165102165102164102163103163104163104164105165102479102479102478101477102477103478103479103479104183104183105182104183105181106181105183105183105494105494105493105493105492106492106493105494105137106136106136106135106134107134107135107136107438106438105435106436106436108435108436108437109166108166107165109164110164111163110165111165108509109508108509109507109506111507110507110508))
 (.node 1 (.leaf 109560107561108561109560109560110560109560110560111373111374110372111372111373111372111373111374112172112172111171112169112170113170113171113172114451114450114449113449115448116449116449115451114600113600114598113598114598115598115599116600116559116559115558116557117556117557118557117557116149000000116149117148117148118146119148119150120457119456119456118455119455120455000000000000119485118485117484117484119483120483120484120485120507119507119506118505120505121505121507121508120170120169119169120167120168122168122169000000121541121540121539121538121539121538121538122541000000000000000000000000000000000000123336122337124564123564123563123562123563123563125563125564125558124559124558124557125556126556126557126558126403125403125402124400126401126400126402126403126498125498126498126496127497128498128498128498128559125560127558127557128557129557129558129559129524128524129523129522129522130522130523129524132578132577132577132575132576134576133575132578133464131463132463133461133462134462134463133463135509133510134508133508135507136507137508135510136552136553136552136551136550137552136552137552136458136458135457136456137456137456137456137458140383139383139383138383139383141382141383140385138462137462137462138461139461139460139462139462144421144421144420145418145419146419146420145420146524145524144522145523146523147523147523000000146396146396146395146394146394146393146395146395147521146522146520146520146520148520147521148521147430000000145429145429146429147429147430147431148333147333147332147331148331149331149332148334)
 (.leaf 150351149351149351150351151351151351152350152351157429155430156428155428156428157428157429157430160395159395158394158393160393160394160395160395161210161210159210160208162210162210161210162210163358162358162357161357162357162356163358163359163378163378164378164377164376166377164378165378170224169224168224169224170224171224170224170224000000000000170455170454171454172454000000000000172405171405171404171403172403174403173406173407174452171453173451172451174450175450174450000000175424173424175424174422175422177423175424176424176444176444176444176443177443178443177445178445180394179394179393179392180392181393181394181394180230180229180228180228180228181228181229180230183224181224183222183221183222183222183223183224183411182411182409183410184410185410184410184411186224183224183223183222185222186222186223186224185276000000000000000000186275186275187276186276186394186394186393186392187394187394187394187395188402186402188402186401188400188401189401188402190208189208189207189206189206189206189206190208190227188226188225188225189225190225190225190227192401190402190402190400192401192401192401192401193230192231192230193229193228194229194230194230194264194264193265193262195264195264195264195265195245194244194243194243195243196243196244197244195255195256194254194252195253196253196254197254197211196211196210195210197211197210197210199211199259197260198260198259199259200259199259199259201417198418198417198417200417201417200417201417206273205273206273206272206271208272207272208272207233206232206231206230207230208231208232208233)))
 (.node 2 (.node 1 (.leaf 210230208231208229208229209229210230210230211230212406212406212406212405212406214405213407214408213430212430213430212430214429215430215430215432215404214404214403214402215402216402216403217404218223218223218223217223218223218223218223220224220257220257220257220257220257222256221256221257222244221244222244221244222244223244224244224244222606221606221605221604221605222605222606222606226424224425225423225423226422226423227424227425228242227242227241228240229240230240230241229242228639227639228639227637229638229637229638230640234242233243233243233242234242235242235242234242235641235642234640234639235639237640236640236641239237238237238236238235238236240235239237239238238406238407238406237404238404238404239405238407238246238246239246238244240245240244240245240246240651240651239650240650241649241649240651240652242611240609241609241608241609243609243610243610244627243628243627243626244625000000000000244627000000245610245609245608000000000000000000000000249646249646248645249645249644249644249645249646251226250226251226250226252226252226253226252226259232259232259231258230259230000000260229260232085189084189085189085188085189085189086190087191000000000000000000000000000000000000014275014276000000000000000000000000000000014275014276014277014278000000000000000000014276015276015277015278014279000000000000000000014277015277015278015279000000015300015299014299015299000000000000000000015286015285015284015283015285016285016285016286000000000000000000000000000000018237017237017237021300021299021298021297021298021298021298022300)
 (.leaf 31559030559030558030557031557031556033556032557033259033260033259032257033257033257033258033259034572000000000000000000000000035572035573034572036303036302036302035301036301036301036301037303036588035588034588034588036588036588037587037588037538036540036539035538037538038536038539037539037556037557037556037553038555038555038555038555038671000000000000000000038667040669040670039669039057000000000000039056040056041056040056040056040629040630040629040628041628042628041628042628042266041266042266042264042264043264042266042266042091041091042089000000042088043089043090043091043566041567042567042566043566043565044565044568043589043589041588042587043587044587044588043589043684042686042683041682042682043682044683044684000000000000000000043129044129044129045128045129043606043607044606043605044605045605044606044606044648043648043647042646043646044646044646044647045522044524044521043521045520046522046523045522045538044538044537044536046536046536045539047539045678045679044677043677044677046676045678046678046072046072046072046071046070047070046071047072046449000000000000000000000000047446047448048448048118047118048118047118048116049116049119048119048474047474048474047472047473049474048473049474048046049045049045048045050044050043050044050045048153048154048153048152049152049150051152050154050593049594049592049591049592050592050593051593050707048706049706048706049706049705050707050708050063048064049062049061050061050062050062051063049490049490048491048489050490051490050490050491050162050163050162050161050159051161052162052163))
 (.node 1 (.leaf 51602050602051602050600051602052602052603052604053082051082052081052080053080053080054081054082053583052583053582053580053581054581054582053582054082053082053081053080053080054080055081055082054137054138054136053135055136056135055136055137054164052165053165054163054164054163056165055166053576053578053575053574054576054576055575055576054664052666054664053664054664055664054664055664055457055457055457054455056456057455056456055458056040057039056038056037058037058037057038058041057553056553056552056551056552057553057553057553000000000000058421058421058421058421059422060421057453056452056451057449058451060451060451059453058113057113058113059111059112060112059112059113060624058624058623059621059622059622061622061623061602060602059602059601061602062600062603061603062621062621061620061619062619062618062620062620062630061630060629061630062630062628063629063630063471063472062472062471062470065470064470064473063526063526062525062524063524063525063525064526063579062579063578061576062576063577064576063578064441063441063438063437064439065439064439064440064495062495063494063493064493065493065494064494064549063549063548063547063548065549064549065549065494063496064495064494065494065493065494065495065539063540063538063538065537066537066538066541066137064137065136064137066137066137066137066138066409065409065408000000065408066407067408066409067462066462066461067462067462069461069462068462067591066591065592066591067591068591067591068591067125067125067122068122068123069123068124069123068150067148068148067146068148069146069149069150)
 (.leaf 67184000000000000067183068183069183068183069183068468067468068467068467068466068468068469069470068444068445068444068443070442070443069443071444072202071202071201000000000000000000073201073202072377071377000000000000000000072376073376073377073396071397073396073396073394073395074395073396073525073526072524072523073525073525074526074527075144072145074143074143074143076142075144075145000000000000073195073194074194075194074195075196074544073544073543072543074542074543074544075544073602073603073602073601073601075601074601075601074164074164073163073163074164075164075164075165074371074371000000000000075369076369076370075371074494074493073493074491075493075492076492077494076466075466074465074465077465077464077465076466077593075595075594076593076593077591077592076594076193075193076192075191077191077191077191078193078146076145076145077144078144079144078144079146080422078421079421079421078420080421081422080423078572077573078572078571080570079571080572079572079166079166078163078163080164081164081165080165080526079526079525079524079524082525080526081528081119081119081117080117081115083115083116081118081447081448081447080445081447083446083446082447084122083122082120083120084120084119085121083121084396083395082393083393083394084394084395084396083592082592083590082588082590084590084591084592083147083148083147083146084146085146085147084147083152083153083152083151084151085151084151084153086190085190085189086190086190086190088191087192088211088210088209088208089208088209088209088211088494088494088494087492088492089492089493089494))))))
 (.node 16 (.node 8 (.node 4 (.node 2 (.node 1 (.leaf 88613088613087612087609089610088611088611089611089126088126088124088124090125091125090125091125090499090499089498090497090497090498000000091499089513089513089512089511090511091513090513091513095179093178094177094177094178096178095179096179000000000000000000000000000000097431096431096432097605096605096605096605097603098603098604097605098162097162097161098160098160099160099161099162098537097537098535098535099535099535099536100536099499099500098498098497098497099498099499099501098522098522099521099520099520099520099521099521099536098536099535098534099534100534100535100536102192101191101190101190102190102189101191102191101475100475100474100473101473101473101474102475103166101166102165102164103164104164105165105165103478102478101477102476102476103477103478103479105493105493105493104491104491105491106492106493107136105137107136106134107134108134108137107136108437107438107436106436108435000000108437108438107561107562107561107560109560109560108560109560109167108167108166107165109165110165111165111166109507108509109507109506110505110505111507110507113172112173112172111171112171113171113172114172114452114451114450114449114450116449115451116452117557116559117557117556117557118557119557118557117150116150116149118149119148120148000000120150119484117484117484117483118483120482120483120484119506119506118505118504119504120504121505121507000000000000120457120456000000000000000000000000000000120170121168120168122168000000000000000000121542121541121540121539121540121538122541121540125564124564124563123563123563124562126563126564)
 (.leaf 125403123403123401123401124400126401125401126403126558125558125557125556126556127556127557127558128498126498127498127497128498129497129498128498129559128559128558128557129557130558130559130560129525128525128524129523129523130523129524130523132579131579132577132577132577133575132578132578137508136508135507136506136506137506137507137508136551136552136551136550137550137549137552136552136459136459136458135457137457137456137458137458138463137463137462137462139462139462139462140464140385140383140383139383141382142382142383141385000000146396146396146395146395146395146395146396000000146431000000144428145429146429146430147430000000146524146523146523147523000000000000000000147332147332145332146330146331148330148331147332000000147523147521147521147521000000000000000000149351148351149351000000149349151350151351150350156428154429154428155426156426156426156428156428158394158394157394158392158392159393160393159394161210160212158210159208160208162210160210161210163359162359162358162357162358163358163359164359164377164378164377164375164375166376166377164378169224168224167225167224169224170224169224170224170454170455170454170454171454172454172454000000171404171405171404171404171402173402172403171404000000174452174451174450175450175449000000000000175423175424174422173423174422175422177423175424178446177446176444177445177445179445179445179445180231180230180229180228180229181229180230180230181394180394180393180392181393181393182393182393183225182225181224183222183223183223183224183225182411181411182409181409183410184410183410183411))
 (.node 1 (.leaf 185225183225183224183223185223186223186224185224185277000000000000000000186276187276186276187276189209189209189208189207189207189206190208189209188227187227187227187225188225189226190227189228190402189402190402189400190400192401191401192401193231192231192231192230194230194230194230194231194264192265193265192263193262195264194264194264194244193245193243193243194243195243195244195245195256193255193255194252194252195253195254195255196211195213195210195209195210197211196211197211197260197261197260197259198259199259198259199259198418198417197417198417198417200417199417201417206232206232205232205231206230207230207232207233207273205273205273206273207273207272208272207273208231207230207230207229208229209229209230210230214408213407212406213407213407215406214408215409215432213430214430214429215430215430216431216431217404215405215404216403216403217403217404218405221256221256220257221256222256223255223255222256221605219606219605220603220604221604221605221605224244222244223244222244223244224244225244224244226426225426226424226424227424227424228425228425229243228243228242229241230241230241230242231243230640228639229639229638229637231637230640231640235640234640234639235639235638236638237640236640239238238238238237238236238237239237239238240238239245239246238244239244240244241244240244240245239405239405238404237404239403240403240406239406240650239650240650240648241648242648241649240651243610242611242609241609243609243609244609243611244627244627244627244625000000000000000000000000249645248645249645248643248644249643249644249645)
 (.leaf 252226251226252226252226252226254225254226254227261233259233259232260231260229000000000000262232000000000000000000000000000000014276014277014278000000000000000000000000000000014277014278014279015285014287014286014283015283015285015285015286000000015301015300015299015300000000000000015301021301021300021299021298021299021298022300021301031560029560030559030558031558033556032557032558033258033259032257033256033256034256033257033258000000032574032573032572000000000000033572034572034588034587034586033586035587036587036588035587000000000000036302036302036302036301037303037304036540035540035539035536035538037538036538037538037556037558037557037556038556038555038555039556000000000000000000000000000000039057039057039058039668000000000000000000039666041667040669040670040629039630040630040629041629041628042628042631041091000000000000000000000000042088042090042091042265042266042264041263041263043263043264042266041567040566041567041566042566043566042566043566043590043590043589041588043588044588043589044590043683042683041682041682043681043682043682044683044649043649043648043647044647044646044647044649045521044521043521043519045519045521046522046523045537044537044536044535045535046535046536045539045677044677043677044677045677046675046676045678046071046072046071046069046069046069047070046071048117048118047118047117049115049115049116049119048155047155046152046152048153048153048153049153048473048474047472047471048473048471049474048473048491047491048490048489049489050489050490049489049593048595049594049592049593050593051593050593)))
 (.node 2 (.node 1 (.leaf 50708048707048706049706049707050707050708050709050062049062049061050060050060050061050062050062051160050162050161050160050159052160051161052162053081052081052080051080052080054079053080054081054167052167052166052165053165053165054164054167054583053584052583053582053582054582053582054584053667052667052666051664054664053665054664054665054081053081053080052080054079054080054080055081054579053579053578053575054577055575055576055579055136055136055136054134056135056134056135056136056456056456056456054455056454057454057455057456056552055554056552056551056550057552056552056552057038056038056037056036057036058036058037057038058452057452056452056451058452060451059453058452058624058624056622056620059621059622058622060624059113059114057113058113059113059112059113059113060421000000059421058421058421000000060420060421060605059605059602059601059602060603061602061605061630060630060629059629061630062630061630062630062622062622062621061620062620062620062620063622062579062580062579063578063578064576063578064578064442064441063441063438064440064439064440064440064470064470062470063470065468066468065469065470063496063496062495063494064494065494064494065494064548063548063547063546064546065546065549064549065136063137063136065135065136065136066137065136065538063538063538064536065536066536066537066538066408065408000000000000000000066407066407067408066591065593065590064590066591067591066591067591066125065125065125066124067122067124067125068124069151068150067148068148068149069149069150069151000000000000000000000000068184068183069183068185)
 (.leaf 67446067446067445067444068444068444068444068444072201071201000000000000000000000000000000073201071398000000000000070397073396072397073396074397072524072525070524071524072522073522073525072524000000000000000000073195074195074195075196000000074493072494072494072493074491075493074493074494074543073543072543072542073543074542074543074544074600073602073601073600074600074600075601074601074146075145075144075144075144076144075145000000075370000000000000000000075368076368076369076370075596073596075593075593075594075594077593076594076193076194075193076192077192077191078193077193077465077465077465077464077463078463078464077465077146076146076145076145078145078144079146079147078573077573077573078572079572080572079572080572080165078166079166078163080165081165080165081165081424080423080422080422081422082421080423081424080525079525079524079523079524081523082525080526081116081117080117081116081114082114083115083116082447081447082447081447083446084445083446083447083120082120083120083119084120085119084119085121082593081593082592083590083591084591084592083593083148083149083148083147084147085147084147084149084396084396084394083394084394085394084395084395087193087192086190087191088191088191088192088193088212088211088210088209088210088209088211089212088614087612088613087612088612088611089611089612091127088127088126088124090126090125091125091126090498089498090497090497090496090497090498000000090512089512089511088510089510090511091513090513095181095180095179095179095179096179097178097179098604097604097603097603098603000000000000097605))
 (.node 1 (.leaf 98163097163097162097161098161099161099162100163098538098537097537098535098536099536100536100538099498098498098497097496098496099497099498099499099523098523098522099521099521099521099521100523101190101190101190101189101190103188102189101191101477101477101476101475102475102476102476102477105166103167103166104165105165106165106166106166105492105493104491104490104490105491105491106492107135107136106134107134107133107134108134108137108438108437108436108435000000108435108437108437107562107563107562107561108561108560109560109561109168109168108167108166109166111165111166111167109506109507109506109504110505111505110505111507112174112174112173112172112172113172114172114173115453113451114451114450114451115451116452115453118557117557118557117557118557118555120558120558118150118150117150119150000000121150121151121151119483117484117483117482118482119482120482120483121505120505119504120503121503121503121504122505121543120541121541121540121541122541121540122541000000000000000000122169000000000000000000000000124404123403123403123401125402125401126403125403126564125564125563123563124562126563127563126563127558126558126557126556127556128556128557128558128498128498128498128498129497130497130498130498129526129526128525128524129524129524130523130526130560129559129558129557130558131556131558130560133580132579131579132577132578132578132578133580136460135460135459134457136458136458136459136459136507135507136506136505136505137505137506137507136550136551136550135550136550138549137549137552137463136463137463136462137462139462138462138463)
 (.leaf 141385140385141383141382142382143382143383142385000000000000144428144427144427145428145429145429146396145396146396146396146396146395146396147396147331145332146330146329147329149329148330148331000000000000147523147523000000000000000000000000000000000000148521147521000000000000000000000000149351148351148351149351150351151351150350150351154429153428153427153427155426156426155428156428157394156394157392157391158391158391158392158393160212157211000000000000159208160208159210161210164359163359163358162358163358163358164359164360164376164377164375164374164374166376166376166377168224166225167225167224167224169224168224169224171403171404171404171401171401172401173402172403000000170454171454171454172454172454000000000000174450174451174450174450175449176449175449000000175422174422173423174420176420176422175422177423179445178446178445177445179445180445180445000000180232180231180230180229180230180230180230180232182394181395181394181394182393183393182393183396182409180410181408180408181409183407183410182409183226182226182225181224183224183224183225184226000000000000000000000000000000186276185276185277187227186227187227186225187225188225188226188227190210189210189209190208190208190208190208190209190402188402189401188401190402190402190402191402192231191231191230192230192230194230193230193231193265192265191265191263193265193265194264194265193243192244192243192241193242194242194243194243193255192255193255192254194252194252194254195256196210195210195209194209196210196209197211196211197261196261197261197260198260198259199259198260))))
 (.node 4 (.node 2 (.node 1 (.leaf 198417197417196417196417198417198417198417198418205232204231204231204231205230206230206230206231205273204274204273205273206273207273206273207273207230206230206229207229208229208229208229208229215409214409214408214408214408216407215409215410217406216406217404217404217404218404219405218406221604219605220603219603220603221604221604221605222256221256222256222256223255224255223255223256224244224244224244223244224244225244226244226244228427227427226426227425228425229425229426229426230244229244228243228242229242230242231243230244229638229639229638229637230637231637231637230640235639234639235639234637236638237637236638237640238404237404237403236403238402239402239403238404240238239238239237238237239237240237240238241238240245239245240245240244241244242244241244240245241649241649241648241648242648242647242648241649244611243611243610243610244609245609245610000000249644249645248643248642248643249643249643249644254227252226253226252226254225000000255227255227260234000000259233259232260232000000262232261234015284014286014283014282015282015283015285015285021302021301021300021299021300022300021301021301030561030561029560030559031559032557032558032561033257032257033256033255034256034255034256033257033589033588033587000000034586034588034588035588000000000000000000036302036303037303037304038305035540035541035540035539036539036538037538037539037558036558036555036554037556038556037556037556000000000000000000000000000000038666039666038667039630039629038629039627040629041629040629040629042089000000000000000000000000043089042088042090)
 (.leaf 42264042264041263041262042262042262043263043264042567041567040566041567042567042566043566043569043591042591043590043589043589043589044590044591043650043650043649043648044648044647044649044650044677043677042677043677044677045677044677045677045520043521043519043518045518046520045521046522046070046071046069046068046068047068046069047070046536046536045535045534047534047534047535048537048474046473047474047472047471048473047473048473048116047118047117047116049115049114049115049116048156046155047155046152048154048153049153049156047491047491047490048487048489049489048489048491050061049061050060049059050059051061050061050062050161048160048160048158050159051157050159050159050593049593050593049593050593051593052592051593050709050708050707049707050707051707051708050708052167051167051166051165052165053165052165054167051668051668051667051664052666052666053667053668053080052080051080052080053080053079054079053080053578053578052577052574053574054576054577053576053585053584053584052583053583053582054584053584056135056135056135056133056133056134057134058135056551056552056551056550056549056549057552056552057455057455056454056453057453058453058454058455058037058037057036058035058035059035059036058037059114057115057114057113058113059113058113059113057625057625058624056622058623058622060624060625059422000000000000059421059422060420060421059422060602059602059601058601059601061602060603061602060629058630059630059629060629060629061630060629061623061623062622062621062621062620063622062621063579062581062580062579063579063578064578063579))
 (.node 1 (.leaf 63137062138062138062136063136064137065136064137065443064441064441063441064441064440064440066443063496062497063496062495064495064494065494064497065408064408000000000000000000000000065408066408065470064470065470065468066468067468066471065471065537063538064536064535065535066535066536066537064592063593064591064590065590065592066591066592067125066125065125065125067125067125068124068127000000000000000000000000000000068184067184000000069151066151068150067148068150069150069151069152067446067447067446067445068445068444068444069445000000000000000000000000070397073396071397071398072523070524071524071523071523073521073522073525072494071495000000072493072493074491073493074493074542072543072542073542074542075542074542074543075147073147075145075144075145075145000000075146075369000000000000000000000000076367076368076369074597075596073596075593075595077593076594076597075195074195075194075193075193076193076193076195077464077465077464076462077462079462078463078464078148078147076146076145078146079146079147079148077573077574077573078572078572079572078572078573078167078166077166078166079166079166080165079166079524078524079523077523079522079523079524079524081424080425080423080422080423080423081424081425081115080117081116081114081113000000082114083115083149082149082148083146083147084147083147083148083446083446083446083446084445084444084445084446082594082594081593082592083592084592083593083594085121083120084120084120085119086120085119086120084397084396084396084394084395084395084395086396088193087193087192086190087192088192088193089194)
 (.leaf 88213088213088211088210088211088211089212088212088615088614087612088613088613089611089612088613088127088126087125087125088124090126089126091127090497090497090497089495089495090496090497090498090511089511088510089509089509090510090511091513097179095181096179095179096179097177097178098179097164096164097163097162098162099162100163099164098497098497097496096496098495098496098496098497098524097524097523097522098522098522099523099524098539097537098537097537098537100536100538099539000000098603098603098603000000000000000000000000101191101190102190101190103188104188102189102191102476101476101475101474101474102475102476102476104491102492104490103489103489104490104490104491106166105166105165105165106165106165106166107167107134106134107134105132108133108132107134108134107563106563106560000000107561108561107561107562108439108438108437108436108437108437108437109439109169108169109168108167109167111166111167109168110505110505110505110504110503112504111504111505114173112174113172112172113172114172115172115173115453114452113451114451114452116452115453116454117484117483117482000000117482118482118483119483120558118557119557118557118555121557120558121558121151118150120150000000121150121150121151121152120504119504120503120502121502121502121503121504121544120542120541121541121542121540122541121543124404123404123403123403125403126403125403125404128558127558127557127556128556128555129557129558130498128498129498129497130497131497131498131499128527128527129526128525129525130523130526130527131560129561130560130559131558131557131558132560)))
 (.node 2 (.node 1 (.leaf 133580130581132579131579132579132578133580133581136461136461135460135459136459136459136459136460136506136506136505000000000000000000137505137506136463135463136463136462136462137462137462137463137552136550137550136550138549139549139549138552142385141385142383142382143382144382144383143385144428143428143427142427143427144427144427144428145332000000145330145329146329147329146331147331148351147352148352148351149351150351149351149351153428152428152427152427153427155426154428154429157211000000000000000000000000159208158210160212158392157392157391156390157391159390158391158392164360163360163359163358163359164359164360165360164375164375164374164374164373166374166376166376166225166225165225166225167225167225168224167225171402171404171401169400170400173401172401173402000000000000172454172454172454000000000000000000174422172423173423173420174420176420174422175422000000174450175450175449176449176448000000000000181233180233180231180230180231180230180232181233180410179410179408179408180408181409181409182409183227182227182226182225183225183225184226184227186229185228185228185227187227187227187227188229189211189211189210189209189209189209190210189211188402188402188401188400188401190402189402190402191232190233191232191231191230192231192231192233192265190266190264190264191263193265192265193265192244191245192244191242192241193242193243193243193255192255192254191254193255193255193255193256195210193211194209193209194209196210195210196210196261195261195260196260197260198260197260197261197417196417195417195416196417198417197417198417)
 (.leaf 204231204231204230203229204231205230205231205232204274203273203273204273205273206273205273205273206230205230205229205228207229208229207229207230215411215410215409215409215409215408217408216409219406217407217406218405219405220404219404219407219605219604219603219602219603220603220604221604223255223255223255222255223255225253224254225256226244224244225244224244225244226244227245227245229426228427228425228425229425230425230425229427230245228245229244228243229243231243230244231244229637229638229637229636230636231636231637231637235638235639234637235636235636237637237637236638237404237405236403236402236403238402237404238404240239239239239238239237239238240238241238241239240244240245240244239242241244242242242244241244242648242648242648242648243646243646243647244649244612243612243611243610243611245610000000000000249645248645248643248643248642248643248644249644255227254227254226254225000000255226255227255228262234261235260234261233262232000000000000000000015283014283014282000000015281015282015283015285021303021302021301021300021301021301021301022303030561029560030561029560031560032558032561031562033256033256033255032254034254034254034255034256034587033587000000000000033586035587034588034588036540034542035541035540036540037538037539038540036559036559036558036555037557037556037556038557040630038632039629038629040630040629040629041630041263041264040262041261041261042261042262041263041567040567039567040565041567042567041567042567044592042592042591043590043590044590044591044592043677042679042678042677043677044677043677044677))
 (.node 1 (.leaf 43651043651043650043649044649044649044650044651045519043519043518044517045517045519046520045521046535045535045534045533046533046533047534047535047472047474047472046472047470048472048473047473048157046155046155047155048155049153049156048156047491047492047491047490048490048489048491049490050060050060049059050059050058050059051061050061050162048161048160048160050160050159050159051160050710050708050708050707050708051708050708050708051593050593051593050593051593052593052594052595052080051080051079050078052080053080052080053080052168051168051167051166052166052165054167054167051668050668051668051667052667053667053668052668053575052577052574052573053573053574054576054577053584053585054583053583053582054582055582055585056134056135056133056133056132056133056134057134056550056551056550055548056548057548056549057552057115056113055113055113057113058113057113059114057454056454056453056452057452058452058453058454058036057036058035058035059035000000059035059036058626056626057625058624058624060624060625060625059602058604058603058602058601059601059602060602060421060421059422058421000000062420060421061423062581061581061580062578062579063579062579063579061623061624061623062622062622063622062621062624062138062137061137061136062136063136063137063137063442063442064441064441064442064440066443065444065469065470065468064467066467066467067468066471065536064536064535064534065534066534066535066536065593064595063593064591065593066591066592066595066125064126064125065125065125067125066125067125067448067447066447067445067446067446067446069446)
 (.leaf 68153068151069151069151069151070151070152070153071495071496000000071494000000072494072494073494072522071524071523071520072520073520073521073522073543072543072542071542072542073543074542074543074148073148073147073146075145074146075147074147075368000000000000000000000000000000076367076368075598073598075596073596075596076594076597075597075196075196074195075194076194076193076195077196078147000000075146000000076145078146077146078148077463077464076462077462078462079462079462078463076574076575076574076571077573077573077573077574078166077166076166076165078166079166078166078167079523079523077523077522079521079522079523079524081114081116081114000000000000000000000000082114081426081425081424081424081424082422083424082426081595081595081594080591081593082593082594083595083150083149082149082148083148083147083148083149084119084120084120084119085119086119086120085119084398084397084396084396084396084395086396085398084445084445084445084444084443085443085444085445087193087193087193087192087193088193089194089194088126087126087125086125087125088124088126088127088616088615088614087612088614089612088613089616088510087510088509088508089508090508089509089510090496090497089495089494089495090495090496090497097178097178096179097177098177099177098177099179097496097497095496095495096496000000098495097496098165097165096164097163098163100163099164099165097525097525097524097523098523099523099524099525098540098539097537098537098538100538099539099540102189102190101190102187102187103187104188102189102475101475101474101473101473103473102475102476)))))
 (.node 8 (.node 4 (.node 2 (.node 1 (.leaf 104490104490103489103488104488104489104490104490106168106167106166106166106166107166107167108168107133107134105132107132107131107132108132107134108564107564106563106560107562107561107562108564109440108439108438108437108438108437109439000000109170109170108169109168109168111167109168111169111505110505111505110503112504112503112504113505115173114173114172113172114172116172115173116173116454115454115453115453115453117452116454117454117483117483117482117482000000117482117483117484121559120560120558120558120558122557122558122559121153121152121151121151121151000000122150121152121503121503121502121502121501122501122502122503121545120543120542120541121543122541121543121544123404124405122404122404123403124404124404125404129558128558128557128556128555130557130558130559128528128528128527129526129526130526130527130528131499130498130498130497131497132496131497131498131562130562129561130560130560131558132560131560133582133581133580133580133580133579135579133581136462136462136461135460136460136459136460136462136505136505000000000000000000000000000000137505136463136463135463136463137463137462137463138463137549137550136550135548137549139548139549139549143385142385143383143382144382145382145383145383146330145330145329145328146328147328147329146331147352147353147352147351148351149351148351148351152427151427151427151426153425153425153427153427158391157391156390156390157390158390159390158391165360164360164359163359164359166358165360166360164374164374164374164373165373166373166374166376166225164227165226165225166225167225166225166225)
 (.leaf 171401171401169400169399171399172399173401172401172424172423171423171423173423173423174422175424175449175450175449175449176448177447176448000000181234180233180233180231180232180232181233181234181408179408179408180408181408182406181409181409183228181228182227182226183226184226184227184228185228184228184227184226185227187227186227186229189212189211189211189210189210190210189211189212189401188401188400188399188400189400190402189402190233189232189232190231191231191230191231191232190266189266190266190263190264191263191265192265191245191245190243190242191242192241192243192244192255190256191254190254191254193255192255193255195209194209193209194209194209195209196210195210196417196417195416194415195416196417196417197417197263196261195261195260197261197260197261198263204231203231204230203229203229204231204231204231203273203273202273202272204273205273204273204274205230204231204229204228205228207229206229206230215412215410215410215409215410217408216409216412218406216407217407217406218406219404219407220406220603219603219602000000219602221601220603220604225256223255224255223255225253225253225254225255227245226244226244225244226244227244227245228245230427229426229426229426230425231425000000000000231637229637230637230636231636232636232637232638236638235638236638235636237637237636238639238639237403236403236402237402237401238401238402237404241239240239240238239238240238241238242238242239241244240244241244241244242242243243242243242244242647242648242648242647243646244645243646243647000000244612244611243611245610000000000000000000))
 (.node 1 (.leaf 256228255228255227255227255227257226256228257229000000000000261235260234261234000000000000000000049115049115049115049114049113050115050116050117015282014282000000000000015280015281015282015283021304021303021302021301021302021301022303022304030561029561029560029559030561030561030561030561034256033256034256034254034254035254035255036257034586000000000000033586034586035586035587034588034542034542034541034538035540036540035540036540037558036560036559036558037558037556038557038558038632038632038631038630038629040630039630040630039567038566039567039566039566041566041567040566041262040262041261039260041260042260042261042262044592042593042592042591043591044591044592044593042652042652043651042650043650043650043651043651045518043518044517000000044517046516045519046520047471047472046472046471048469048469048472048473048158048158046155046155048156049156048156048156049114049115049114048112049112049112050115050116050059049059050059049057050057051059050059051061050163048163048161048160050161050159051160050162050711049709050708050708050709050708050708051711051080051080050079050078050078052080051080052080051668050668050667050666051668051668051668051668051169051169051168051167052167054167054167054168052594052592051593051592053591053592053593053594053574052574052573052572053572053574053574054576053585054586053585054583054584055582055585054585056549056550055548055547056547058547057548056549057116056116056113055113057114057113059114057115057453056453056452056451056452057453058452058453057627056627055626056625057625057625058626058627)
 (.leaf 58035058035058035057033058035059035000000059035060420059422058421000000000000061420062420060421061625061625061623061622061623061623061623061623062138062138061137060137061137062138062138062138062582060582061581061580062580062579063579062580063593062592062592062592064590065590065593064592064126064125063126064125065125065125065125066125065445065444063442065443066443067442067444067445065535064535064534064533066533066533066534066535067468066468066467066467067468068467068467067468069154068154068151069151069152070152070153070154070497000000070496070495000000071495071495071497070524070525069524070521071523071523072522072523072543071543071542070541071542072542072543073543073149073148071148071145073147073147074148073149074599073599073598073597075596074597075598074598000000000000000000074195074195075195075196075197000000074147075147074146000000076145076146078147077166076166075165075165076165078166077166078166077462076462077462076460077462079461079462079462077574075575076575076574077574077573077574078574079522077523077522000000079520079521079522079523081113081114000000000000000000000000000000000000082427081427081425081424081425083424082426083426081595000000081595081594082594082594083595082595083151083150083149082149083149083148083149084151085398084397084397084396084397086396085398086398084444084445084444083442084442085442085443085444085119084119085119085119086119086119087119086121087125087126086124086123086123088125087125087125089194087193088193087193088193089193090194090195088617088616088615088614088615088613089616088617)))
 (.node 2 (.node 1 (.leaf 89495088495088494089494089493089494089495089495089509088509088508088507088507089508090508089509097497094496094496094495095495096496096496097496097166096166097165096164096164097164098165098166097177096179097177096177098177099177099177098177098526097526097525097524098524099524099525099526099541098540098539097537098539099539099540099541101474100474100473100472100472101473101473101474104188103188102187102186104186105186103187104188103489102489102488102487102488103487104488103489108169107168106168107167107167108167109168108169107565107564107564106563107563107562108564108565107134107133108133107131107132110132110132110135108441108440108439108438108439109439000000110441109171109170109170108169109169109168111169109170111504111505110503111503111504113503112503112504116173115173115172114172116172116172117172116174117454116454116454116454116454118454118455118455117482117482117482116482117482118482117482117483121154120154121152121151121152122150121152121153121502121502121502121501122500123500122501122502121546120546120543120542121544121543121544123546122559121559121558120558122557123557123558123558124405121404121404121403122404123403123404123404128529128528127528127527128527128527128528128528130559129558129557128555130557130555131556131558131498131499131498131497132496132496131498131499131560131562131560130560131558132558133560133561133583133582133581133580133581135579133581133581136463136462136462136461136461136460136462137463139549137549138549137549139548139549140550139549145383143385144383144382145382145383146383146384)
 (.leaf 146329145329145328145327147328147327147328147329148352146353147353147352148352148351148351148352151427151427150426150426151426153425152427152427157391155392155391155389156390157390157391158391164360164362164360164359164360165360166360166361164227164227164226164225165225166225165225166225169400169400169399169398169399172398171399170400172423170424170423170423171423173423172423172424000000175449176449176448177447000000000000000000179408179408178408179408180408181408180408181408182234181234181234181233181233182233182234182235183229183228181228182227183227184227184228185229185230185229185229184228184227185228185228186230188401188402186401186399188399188400188401189401188213188213189211189211189211189211189212189212190266188265188265188264190262190262190264190264190234190234189232189232191232191231191232191233191245190246191245190243192244192243192244192245192254191254190254190254191254192254193255192255194209192210192209192208194209194209194209195209196417193418194416194415194415195416195417196417196261195261194261195261195260197261196261197263203273201274201274202273202272204273203273203273204230204230203229202229203229204229204231204231204231203229203229203228204228205228205229205230216413215412215410215410215411216409216412216413220406218406219406218406219404221405220407220408219603218603218602000000000000219602219603220603224254224255223255223254225253225252225253225254228246226245227245227245227245228245229245228245000000229429229426229426229427000000000000000000232638231637231637231636232636233636233637233638))
 (.node 1 (.leaf 236403234403234402236401237402237401236403237403238639237637237637236635236635238635238638238639242239241239241238240238241238242238243238243239242244241244242244242242243243244243243243243244243646243646243646243646244645244644244645244646255230254230255228255227255228256228257229257229000000000000262234261234000000000000000000000000015281000000000000000000015279015280015281015282021305021304021303021302021303022303022304022305029560028560029559027559028558029560030561029560000000000000000000000000033586034586033586034586034255034256034254033253034253035253035254035255035543033542034542034541035541035540036540037543036561035561035558035557036559036559037558037559039629038631038630038627039627040629040630039630040565039567039566039565040563041565041566041567041261041261039260039259041259042259042260042261043651042653042652043651043651043651043651043652043594043594044592044592044592045592045593045594045517044517000000000000045517046515046516045519047470046472046471046470047470049468048469048472048159047159048158046155048157048156048156048158049113049114048112048111049111050111049112050115050058050059049057049056049056051058051059050059050164048163048163048161050162051160050162052164050668049668050668050667050666051668050668051668050712049712049709050708050710050708051711051712051079050079050078050077050078052079052080051080051169051170051169051168052168054167054168053168052595051593052592051593052593053593053594053595053573052573052572052571053571054571053574053574054586052584053584053584054583054584053584053585)
 (.leaf 56548055548055547056547056546057546058547057548055628054627054627055626055626056626057627057628056117055116056116056113057115059114057115058117057452056452056451056450056451058452057453058452059035058035059035058035059035000000000000000000060626060626061625061623061624061623061623062626062137061137060137061137061136062136062138062138061583060583060582061581062581063579062580063583064125063127062126063125064125065125064125064126064591062592062592063591064589064590065590065593065446065445065444063442065444067444067445067445065534064534064533064532065532066532066533066534066467066467066467066466067465067465068467068467068155067153068153068152068151068153069154070154071498070498000000070496071496071495071497071498072525070526070525069524071524072522072523072524072542071542070541071542073542073542072542072543073150072150073148071148073148074148073149074150073600072600072597073596073598073598074599074600074147074148073147075145074146000000075146000000000000000000000000000000075196075196075197075197076166075166075165074164075165076165076166077166075575075574075573075572076574077574076574077574079462077462078462077462079461080461080462080463079521077522000000078519079519080521079521079522082427081427081427081425081426082426083426082428080595080597080596081595081595081595081595081595083152082150083150083149083150083149084151083152085400083398084397084397084398085398086398085400084443084444083442083441084441085441085442085443087121086120085119086120087119087120087121087122087126084125085124086123086123086123086125087125))))
 (.node 4 (.node 2 (.node 1 (.leaf 88618088617088616088615088616089616088617088617089494088494089494088492089492090492089494089495089508088508088507000000089508089508089508090508094496093496093495093494094495095495095496097497097167097167096166097165097165098165098166099166097527096527097525096525097525097525098526098527098177097177098177098177099177100177100177100179099541098541098540098539098540099540099541000000101473100473100472100471100472101472101473101473103187102187102186102185102185104185105186103187103488102488102487101487103486103487103487104488108132108133107131107130107131110131110132110132109170108169108169108168109168109168109169109170108566107566107565108564108564108564109565109566110441109440108441109440000000110440000000111442112504111504112504111504113503114503113503113504116175114175115173115172115173117172116174117175118455117454117454116454118454118454118455119456120154120155120154121152121153121152121153121154121547120547120546120543121545121544123546123546121404121404120403120402121403122404122404124405123558122559122558122557123557124558124559124559128530128530128528127528128528128528128528128529130560130560130559130558131556132556131557131558131497131498131497131495132496000000132496131498133561131560132560131558132558133560134560134561133584133583133582133581133582133581133581133583135463134463136462136462136462136462137463136463139549139549139549139548139549140547140550141550146384145383145383145382145383147382147383147384146328145328145327000000000000000000147327147328146353146354146353146352147352148352147352148352)
 (.leaf 151427150427150426149426150426151426151427151427155391154391155389154389155389156389156390156390164227164228164227164226165226165225166225165228166361164360165360164360165360167360167360167362169399169399169399169398170398170397169399169399170424169424169423170423170423171423171423172423176448176449176448176447177447178446000000000000179408178408177407177407179408180408179408179408182236181236181234181234181234182234182235182236184229181230183228181228183228184228185229185229188400186401186399186399187398188399188400188401189234189235188233188233189232190233190234191233190263188265188264188262190261190262190262190264190246189246189244189244191245191245191245191245191254189255189254190254190254191254191254192254192210191210191210191207192208194209193209194209195261193262193261194261195261195260195261196261195416194416194415193414195416196414195416195417201274200275201274202273202273202272202273203273203229203229202229202228203228204228204229204231215414215414215412215410215412216412216413215414220408218407218406219406219407220407220408221408219602218602000000000000000000219601219602219603225253225253225253225252226252227252226252226253228245228246228245227245228245230245230245229245000000000000230427229427000000000000000000000000233638232638232637232636233636234636234637234637236402234402236401236400236400236400237401236403237636237637236635236634236634237635238635238638243239242239242238241238242238244238244238243238242243242244242242241243242241243241244243243243244645244645244645244644245644246644245644245645))
 (.node 1 (.leaf 257229255230256228255228256228257228257229257230090195089195089194089194090194090194091195091195015280000000000000000000014279015279015280015281021306021305021304021303021304022304022305022306029559029559027559028559028558030559029560030561034254034254033253034253034252000000035253035254034542034544033541033540034542034542035543034543036562035562035561035558036560037558037559037562038631037629000000000000038627039627038629039629038566038566038565037564039566039566040565039567041260039260039259000000000000042258042259042260042654041654042653042651042652042652043651043652044517043517044516043515000000045517044517045517045595043595043594044592044593045593045594045595048160048159047159048158048158048156048158048160048469048469047470047467049468049467049468049471049112048112048111048110049110049110050111049112050057049057049056049055050057051055051058051059050078049078049077049076049076051078050078050078050165049165048163048163050163050162052164051165050667050668050667049665050665051667051668050668000000049713049712049709050711051711051712050713052596051596051593052592052594053594053595053596053572052572052571052570053570053571054571053574053587052585052584053584053585053584053585053587056452054453054452055450056450056451056452057452056547055547056547055547056545057545057546058547056629055629054627054627056627057627057628057629057116056116055116056116057116057115058117058118062627060627060626061625061625061623062626062627062584061584060583060582062582062580063583062583063128063128062127061124062126063126064125064126)
 (.leaf 64590062592063591064589064588065588064590065590066446065446065445065444065445067445067445066447066533066533065532065531065532066532067532066534067468067468066467067468068467068466068467068468068156067156067153068153068154069154070154068155069498068498069498068496000000070497071498071499070526068526069525069522069524071524070524072525071542069543069543070542071542073542071542072542073601072601072600072597073599074599074600073601074149073149074148073147075147075146000000076149075165074165074164073163074164075164075165075165076575075575075574075573076575076574077574077575080463079462079462079461080461081461081463081463079520000000078519078518078519079518080521079521082429082428082427082427083426084426084426084428083153083152082150083150083151084151083152083152084442083442083441084441085440085440085441085442085400085400085398084398085398087397087398086400087121085121086120085119086121087121087122088121086124085124086123085122087122087122086123086125087618087619088617088616088617088617088617089619089493089494088492000000000000090491090492089494093496093496093495092494093494094495094496094496097168097168097167096166097166098166099166099168097528096528096527097525097526098526098527098528100179098177099177099177100177100177101178100179100472098473098473100471100470100471100472100472102488101488101487101486101487103486102488103488105186104186102185104185104184104185105185105186108133105132107132107131107130107131107132108132109170107169108169108169108169109169109170109171107566107567107566107565108565109565109566108566)))
 (.node 2 (.node 1 (.leaf 111442110442110441110441000000110441111442111443112503112504111504111503111503113503114503113503117175116175116173115173117172118172118172118174120155120156120155120154121154121153121154123156121404119405119404119402120402121403121404121404121548120548120547120546121546123546123546123547124559123558123558123557124558125557125558125559129531128531128530128528128529128528128529129531131558130560131558131556132556133557133557132558132496132496132496132495000000000000000000000000134561133561133560132558133560134560135561134560133585133585133583133582133583133581133583133585136463135463134463136462136463137463136463136463139550139552139549140550140550141550142550141550147384146384146383145383147382148382148384148384147328146328147328000000000000148326147328148328146354146355146354146353147353147352148352148353150426149426149425148425149425151424150426150426155389153389153389153389154388155388155389155389164229164228164227164227164227164227164227164228167362166361166360165360167360167360168361168361169398169399169398168398170398171397170397169399169424168423168423168423170423170423170423170424000000177447177447177446178446179445000000000000182236182236182234181234182234183234183235183236183231182231181230183228183229185229185229185230188399186399186399187397187398188398188399188400189235188235189235188233190234190234191233191234189247188247189247188244189244190246190246190247189255189254188254188253190254190254190254191254191210191211190209190208191207192208192209192210193262192263193262193261194261195261194261195261)
 (.leaf 194415192415193414193413193414195413195416194415200275199275200275200274201274201274201274201275203229202229201229201228202228203228203229203229215414214415215414216413216413216412216413216413220408220406219407219404221405220406221407221408225252225253225252223251226252226252227252226252229245228245229245228245230245231244230244230245234637233638233637233636234636235636235636234637236635235635236634236634000000236634236634236635236403236402237402236400236400237401238401238402243243242243243243242241243241245242245243244243244644244645244644244644245644246643246644245644257231256231257229257229257229259229258230259231088507088507088507088507088507089507089508088507091195090195090195090195091195091195092195091195015279000000000000000000014278015278015279015280021307019306021305021304021305022305022306022307027559000000000000000000028558029558028558028558034544032542033541032542033540034542033542034542034253033253034253033251034251000000000000035253036563034562035562035561036561037559037562037563038632037630037629000000038630038629039629038632038568038567038566038565039567040565039567040567041259039259000000000000000000000000042258042259041654040654041654042653042653043651043652043653042594042596042595041594043594043594045595044596048161048161048159047159048159048158048160048160049111048111048110047110049109050109049110050111049468049468049468049468049466049467050467050470050077049077049076049075049076051077051078050078050166050165049165048163050164052164051165051166050666050667049665049664050664051664051667051668))
 (.node 1 (.leaf 50714049713049712050712051712050713050713052597052596051596051593052595053595053596053597053571052571052570052569052569054571053571054571053587053588053587054586053585054585055587055588054630054628053627053627054627055628056629056630056451054452055450055449055450057449056451056452056546056547055547055544055544056545057545057546059627059628060627060625060626060626062627061628060585060585060584060583060583061583062584061584063129063128063128062127063127064125064126064129064589063591064589064588064587065587065588064590065446065446065446065445065446067445066447067447066532065532065531064531066532066532066532067532068157068156067156067153068155070154068155068156068467068467068467067465068465068466068468068469069499069498068498069498070498071498071499000000069525069525068526069525070525070524072525072526069543068542069542069541070541070541071542070541073602072602072601072600073600074600073601074600073149073149073148073147073147075147074147074149075575074575074574074573075573076575075575076575079519078519078518078517078518079518079518080521081463080463080462080461081461082461082462082463083430082428082428082427082428084426084428083430083154082154083152082150083152083152083152084154084441083441084441083441084441085439085440085441086123086123085122085121087121088121087122086123086400085400086398085398087397088397087397087400088121087121087121086121087121088119088120088121087619086619087619088617088618088617089619088619089492088492000000088492089490090490090491090492093495093496092494092493092493093494093494093495)
 (.leaf 98168097168097168097167097167099166099168099169097529096529096528096527097527098527098528098529100179100179100177100177100177100176101178101179100471098473100471000000101469101469100471100472102487101487101486100485102485102485103486102488104185102185104185104183104183104183104185105185107131107132107131107131108130109130107131107132108566107568107567107566108566109566108566108567109172109171109170109170109170111169109170109172111444111443111442111442111442111441112443112444113503112503113503111503113503115502114502113503116176116176116175116173116174118172118174117176120156120156119155120153120154121154120154120155119404119403119402119401119402120402120402120403120549120549120548120547121547123546123547123549125561124560124559124559125558126558126559124560129532128532128531128530128530128529129531129532131557131558131556130555132555132557133557133557134586133585133585133583133584133583133585134586134560134561134560133560134560136559135561136562135463134463133463134463136462136463135463136463141550139550141550140550141550142550143550142550146355146355146354146352146353147353146353146354147327147328000000000000000000000000148326147328148384147384147383147382148382149383149383149384149426147427149425147425148425149425149426150426153389153389000000153389153389154388154389155389164230164229164228164227164228164227164228164230168361167362167360167360167360169359000000000000168423167424167423167422168423170423169423169424169399169398170398170398171397172397172398172398000000178446178446178445179445180445000000000000))))))))))))
 (.node 32 (.node 16 (.node 8 (.node 4 (.node 2 (.node 1 (.leaf 183236182236182236182234182235183235183236183237185230183231184229183229185229184228185230186230186399186398186397185396186396188396187398187398188235188236188235187233188233190234189234189235188247188248187246187245188244189244189246189247189254187255187254187253188253190254189254189255190211189212189211190210190209191210191210191212192263191261191261191260193261194261193261193262193414191414191414191413192413194414193414193414200275199277199276200275200275200275200275200276202229201229200229200229201228202228202229203229214415213416214415215414215414215414215414216414221408220408220406219407220407221407221408222409226252225252226252226252226252228251227251228253230245229245230245230245231244232243231244232246234637234637234637234636235636235635235636236638237401237402236400236399236400237401237401238401244243243243244243243241245242246243246243245243245644244644245644245644246643247643247644246644258232256232256231257229257230258230259231259232074164073164073163072164073163074164074164074164091195091195091195091195091195092195093195092195000000000000000000000000000000014278014279015279021308019307019306021305021306022306022307021308029559000000000000000000028559028558028558029559033541033541032542032541033539034541034542033542034252034253033251034251034250000000000000000000036564035564034562035562036562037562037563036564038566037566036565037566037564039566039567038566037632037633037630037629038631039629038632039633042654041654040654041654042654043652043653043654043595042597042596042595043595045595044596044597)
 (.leaf 48162048162048161048159048160048160048160048161049076049076047075047075049074051076049076049076049110048110047110049109050108050108050109049110049467049468049468049466049465050467049467050467051167048165050165049165050165051165051166051167050665049665049664049663049663051663051664051667052598052598052596051596052596053596053597052597053570052570052569052568052569055570054571053571053589053588053588052585053587053587053587054587054630054629054628053627055629056629056630055631056450055450055449055448055450057448057449056451056545055547055544055543055544057545056545057545060629059629059628060627060627062627061628060629060585060586060585060584061584062584061584061585063130063129063128063128063128064126064129063129064588064589064588063586063586064587065587065588065532064532064531064530064531066532065532066532067447065446066446065446067445067446067447067448068158067158068156067156068156068155068156068158068466068467067465068465068464068466068466068468069498068498067499068498069498070498069498069499070526069526069525068526070526072525072526072527069543069544068542069542070542071542070541071542073603072603072602072601073601073601074600073602074150073150073149073148074148074147074149074150075574074574074573075572075572076574076575075575078519000000077518077517078517078518078519079519000000081464081463081463082462083462083463000000083430081429082428082428082429084428083430084430084154083154082154083152083153083152084154084155085440085440084441085440085438085438086439086440087122087122087121087121087122088120088121088122))
 (.node 1 (.leaf 87400086400087398087397088397089398088399088400086619086620087619086616088617088618087618087619092494090495091493091492091492092493092493092494097530096530096529096528097528098528098529098530100470100471000000099470101468101468101469100471102179101179100179101178101178102178102179103179101487100487101487100485100485102485101487102487104184104185104183104183105182105182104183104185107130107131107131000000000000000000109130107131107568107567107566107565107566108566107566108566109173109172109171109170109171109170109172110173112445110445111443111442111443112443112444112445113503113503114503113503115502116502116503116504118176117176116176117175118174119173117176118177119402119402119402119402119400119401119402119402120157120157120156119155120155120154120155120157122549120550120549120548121548123547123549122550124560125561125559125558126558127558125560127560129533128533129532129531129531129530129531129532133557132556132555131554132554133554133555134557133585133585133585133585133585133585134586000000134463132464133464133463134463136462134463135463136562135562134560135561135561137560136562137562142550141550142550141550142550143548144550144551146356146356146355146354146354146353146354147356149384148384148384148384149383149384150384149384149425149425147425148425148424149424149425149426163231163231164229164228164229164228164230164230000000000000168361168361000000000000000000000000167424166425166422166422167422168423168423168423170397170398170398170396171397171397172397172398000000179445179445179445180445180445000000000000)
 (.leaf 183237182236182236182236182236183236183237184237187397186397185396186395187395187395188396187398187255186256186255187254187253188253188254189254188236187237188236188235189235189234189235190237188248187248188248187246189247189246189247190247190212189212189212189211191211191210191212191212192263191263191261191261193262193261193262193262193413191414191413192413192413193412194414193414199277199276197275198275200275200275199275200275201229199230199229199228200229201228201229202229213416213417213416212414214415214415214415214416221409218408220408220406220408221408222409221410228253226252227252226252228251229251228251228252230244230245230245230244230244231244232243231244235636235636235636235635236634236634236635237637236400236400236400236399237398236399236400236400245243244243245243245242246243246243247243246243246644245644246644246643247643248643248643248645000000000000256232256231257231259231259232258233092195091195092195091195092195094195094195093195021309019308019307019306021307022307021308021308000000000000000000000000000000028559027559029559033540032542032541033539033538034538034541034542034251033251034251033249000000000000000000000000035565035565035564034562036563037563036564037565038565036565037566037565038565039565039566039567037634000000037633037630038632038632039633039634041654040654039654039653041654042654041654042654042596040596041595040594041594043594043595042594048163046161048162048161048161048160048161048163049075047075047075048073049073050075051076049076049109047110049109049108049109050107050108050109)))
 (.node 2 (.node 1 (.leaf 49466049468049466047465049464049465050467049467051167049168048165050165050166051166051167051168050664049664049663048662049663050663051663051664052569052571051570052568052567053569052569052569053590053590053588053588053588053587054587053590055450054452054449055448055448055450055450056450055544054544055543055543056542056542055544055544059629058629058628058627060627060627059627060629062131062131063129063128063129064129063129063131064587064588063586063585063586065585064587065587065531064531064530064529064530066529066532065532067448065449065446066446066447067447067448067449068159067159067158068156068157068156068158069159068465067465068465066464068463068463068466068466068498067500067499066497068498069498068498069498069525068527067526068525069525070525070526069525068544068545068544068541068542069543069543069543073151072151072150073148073149073149074150074151073604073604072603072602073602074600073602074604075573074573075572075572076571076571076574076575078518077518077517000000078516000000078518078519000000000000082463082462083462084462084463084464084155083156083154082154083154084154084155084156082431082430083430083430083430085429085430084430085439084441085440084439000000086437085438086439087397087398087397086397086396088397089398088399087619085621086620087619087619087618087619088619088121088121087122087121088119088119088121090121092493091493091492090491091491092492092493092493093195092195093195092195094195095194095194095195098531096531096530096529097529098529098530098531101179099180101179100179101179102179103179103180)
 (.leaf 101469101469101468101467101467000000102468102469101486101487100485099484101484102484102485101487104183104183104183104181104183105181105182104183106569105568107567107566107567107566108566107568107131107130108130000000000000110130110130110131109174109173109172109171109172109172110173111173111446110446110445111443111444112444112445113446114502114503113503114501114502116501116502116503119401119402119402000000119399120399119401119402121158120157120157120156120156120155120157121158121550120550119550119549120549120549122549121549127560124560126559126558127558128558128559127561129534129534128533129532129532129531129532129533133557131557132556132555132557133555134557133557132464132463131463132463133463134463133463134463000000134587133585134586134586136584000000000000136562135564136562136562136562138560137561137564144551142550143550142550143548000000144551145551145357145357146356146355146355146354147356147357149384149384149384149383149384151384150385151385163232163232163231164229164230164230164230164231166425165424165423165421166422167422167423167424172398170397171397171397171397172397173397173398000000000000180445180445180445000000000000000000184237183237183236182236183236184236183237184238185396185396185395185394186394186394187395186396186256186256185254185252187254187253187254187255187237187237187236187235188235189235188235188236187248187249187248186246187246189247188247188248189212188213189212189211189211191211190211190212191263190264190262190262191261192263192263193265191414191413190413191413192413192413192413193413))
 (.node 1 (.leaf 198277198278199276197275199276199275200275200278199230198230199230199229199228200229200229201229212417211418213416211415213416213416213416213417221410221409221408220408221408221408221408221409227251227252226252227250227251229251229251228251231244230244231244230244231244233243232243233244235635235636235635235634236634000000236634236635236399236400236399235399237398237397236399236400246243245243246243246243246243248242000000247243248645246644247644247643248643248642248643249645259234000000000000258232259232259232259233000000020310020310019308019307021308021308021308022310033539032541033539032539033537034537034538034541034250034251033249000000000000000000000000000000037566036564035565036564036564037563038565037564000000000000000000000000037630038632037632037634040654039654038655039654039653041654040654041654042597040596040596041595042595043595042594043595048164046163046161048162048162048161048163048163049074047075048073047073049072049074050075051076049465049466047465047465048464049464049465050467049663047664048662048661048662049662049663049663051169050169051167051167051167052167052168051169052568051570052568052567052566053568053569052569054590053591053590053588053589054587053590054591055449054449055448055448055447055448055450055450055543055543055543055542055543056541056542055544059630058630058629058628059628059627060629059629063132062132062131063129063130063129063131064130063586061587062585061585062585063585063586063586064531062532062531063529064529064530064531065531067449067448067447066447067447067446069446067448)
 (.leaf 67501066501066500065498067499067499068498067500067159066160067159067158068158068158069159069160068464068465066464067462068462069462068463068466067527066528066527067526067526068526069525069526069544067546068545068544069544069543069543071544072152072152072151072150073150074150074151073152072605073604073604072603073603073602074604074605075572075572075572075572076571076570076571076574078517077517000000077515077516000000000000078518084464000000083463083462084462085462085463085464084156084155084154083154084154085152085155085156084430082431084430083430085429085428085429086430085438085440084439085437000000000000086437085438085621085621086619086619087619087619086619087619088120087122087121087120088118088118088119088121088399087397088397086396088397089397090397089399091492090492090491090490091490091491091491091492095195093195094195094195095194095193095194095197097532097531096531096530097530098530098531098532100485000000099484098484100483100483101484100485101468101468101467100466000000000000000000102468105182105182104183104180106181107180106181105183106569106568105568107567107568108566107568107569110131107131109130000000110130111129111131111131110175108175109173109172109173110173111173111175000000112446111446112445112445113445113446113447116503114502115502114502116501117501116501117503119400119402000000000000000000119399120399119401120157119157120157120157120157120157121158122158119550119550120550119550120550122549121549122551126560124562125561125559126559125560127560126560129535129534129534128533129533129532129533129534))))
 (.node 4 (.node 2 (.node 1 (.leaf 133464131465132463131463133464133463134463134464133557133557133557132557133555134555135557135558137564136562137562136562138560138560139562138562145551144551144550143548000000000000146550146551146358145358145357146356146356147356147357147358151385149384150384149384151384151384151385151386163233161233163232163231163231163231163232163232165423164422164422164421165421166420166422166422173398172398172397171397172397174395174396173397183237182239183237183236183237183237184238185238185256185255184255184254185254186255186256186256186395185395185394186393186393186394186394187395188238187238187237187236188236188235188236189238187249186249187249187248188248188247188248189250188213187213188213189211189212189212189212190214190264190263190262190261190262191261191263191263191413190413189413189412191413192413191413191414198230198231197229197228199229199228199229199230198278198279198278199276199277200275200278199278213417211418211418213416213417213416213417214417221410221411221410222409221408222408223408222410228251227251228251227251229251229251230251229251232243232243231244232243233243233243234242233243236399237398237398237397237396238396237398237398247243246243247243246243248242248243000000000000248643248643248643247641248641248642248643248644259234257235000000000000258233259233000000259235236634236634236634235634236634236634236634236634020310020311020310019308021309021308022310021310033538033539032539032536033536034536034537034538036565036565036564035565037565038565037564038565000000000000000000000000037633037632037634037634)
 (.leaf 39654038656038655038654039654039653039654040654041596041596040596040596042596042594043595043598048165047163046163046161048163048163048163049165048662046664047663047662047661049662048662048662049073048073047073047071048072050073049074050075049464047465047465048464048464049463049464049465051170050170050169051167051168052168051169051169052567052568052567051565051565053565053568053569053592053591053591053590053590053590054591055591055448055448055448054446054447057447055448055450056542056542055543055542056540056541057541056542058630057630058630058629059629060629059629060629062133061133061132060131062131062131063132063133063585062585061585061584062584063584063585063586064530062531063529063528064528065528064530064531067450067449067448067447067448069446067448067450066501065501066501066500067500068498067500067501068159067161066160067159068159069159069160068161068463066464067462068462069462069461069462068463068527067527066528066527068527069525069526069527067546066546066544066543068544069544068544069544073153072153072152072151073151074151073152074153073606072606073604073604073604074604074605073605076571076571076571076570076569077571078572077573078516000000077515076515000000000000000000000000084157083157084155084154084155085155085156085157085464084464084463084462085462000000000000000000086430084430085430085429085428087429087430000000085622085622085621086619086620086619087619087620088119087121087120087119088117089117088118088119089400088400088399089398090397090398090399090400090491000000089490089489089489091489091490090491))
 (.node 1 (.leaf 95194095194095194095193096193096194096195096196098533097533097532098531098531099531099532099533099484098484097483097483098482100482100483099484101467101467100466000000000000000000000000000000105571104571105570105569105568106569106569107569109174109176108175109173109174111173111175111176111131110131110130110130111129000000111131112131114448112448000000113446113446114446114447000000117503116503116502116501117501118501118502118503119399000000000000000000000000120399119399120399122159121160120157121158121158122158123159122160122551119550121550120550122549122550123550123551124562124562124560124559125559126559124560126560130535129535129534129534129534129533129534130536131465000000000000000000131463133464132464133464135558133557134557133555134555136556136557135557137561137562136562137560137561139560138560139562145552143553144551144550144551146550146551146552146359145359145357145357145357145357146358146359151386150386149384150384150385151385151386152387163234161234161233163232163232163232163232164234164422163422163420163420164421165420165421165421173397173398173397172397174395175396174396175398185238183237184237183237183237186236186237185239185257184257185255184255186256186256186256186257186394185394186393186392186392187394186394186394186249185249186249186248187248188248187248187249188213186214186214187213188213188213188213188215190262188264188262189260189261190261190262190262190413189413188412188412189412191413190413191413198279198279198277197275199276199277198277198278198231197232198231197229199230199229199230199231)
 (.leaf 211418211419211418211417213416213417212417213417221411221410221409221408222409221408221409221410229251228251229251229251229251231250230250231252233243232243233243233243233243235242234242234243237397237398237397237395237395237396238396237398248642248643247641247640248640248641248642248643000000000000259234259234000000260234261235000000020312019312018311019310020310020310020310020311033537032539032536032535033535033535034536034537037566036566036565036564037566037564038565038566038657037657037656037655038655038655039654039655042599041599041596040596042597043595043598043599047166047164047163046163048164048163049165050165047465046464046464047464048464048464048464049464048661047663047662047661048661049661049662048662049072047073047071048070048071050070050073049074051171050171050170050169051169051169051169051171052566052567051565051564051564053564053565053568055591053592054590053590053590055588054591055592055447055448054446054445055445055445057447055448056541055543055542055539056539057539056541057541059630058630057630058630059630059629060629060630061134061134061133061132062132063132063133063134062585061585060585060585061584062584062585063585064529063529063528063527064527064527065528064530067161066161066160067158067159068159067159068159067451066451067449067448067449067448067450068451067501066501065501066501067501067500067501068503067527065528065528065525066527068527067527068527068462067462068462067462069461069460069461069462067546067547066546066544068545068544069544068545072154072154071153070152072152072152073153073154)))
 (.node 2 (.node 1 (.leaf 72607072606072605072604073604072605073606073607076570076571076570075568075568076569077571078572000000076516000000076514076515000000077516078516085157083158083157084155084156085156085157085158085429085430085429085428085427087428087429087430000000085464085463085462000000000000000000000000085623084623084622085621085621085621085622085623088118087120087119088116088116088117089117088118090400089400088400088399089399090399090400090401090490089490089489089488090488091488091489091490095193095194095193093192095193096193096194096195098484097484097483097482097483098482098484099484098534097534097533097532098532099532099533099534106568105570105569105568107567107568106569106569111176109177109174110175111175112174112175111177111131111132111131111131111131113130112130112131113449113448112448000000113447114447000000115448116501116502116501116501116501117501118501118502121549121550120550120549120549123549122550123550122160122159122158121158122158124157123159124160124562123563124562125561124560127560126560126563130536129536129535129534129535129534130536131536132463000000000000000000132463133463133464132464135557135558135557134555136556137556137557136559138560138560137561137560138560139560139561140561146359145359145359145357145358146358146359147359146552145552145551144551146550147550147550147552152387151386151385150385151385152385152386152387162235161235161234161233163233163232164234163234163422162422162421163421163420164421164421164422174396174396174395174395175396175396176396176397185239184240183237184237184238186237185239186240)
 (.leaf 184257183257183257183255184255186256185256185257186393186393186392186392187392187391187394186394186214186215186214187213187213188213187213188213187251185250185249186249187249187248187249187250189413189413188412187412188412189412189413190413190261188262189260188260189261191261190261190262197232196231196229196228197229199230198230198231197280197280198279198277198278198277198278198279211420210420211419211418211418211418211418211419000000221411221410221409221410221409221410221411231252229251230251229251231250232250231250231251237396237397237395236394237394237395237396238396248641247641247640248639248639250639248641248642000000000000000000259234259235261235000000000000020313019313019312018311020311020310020311020312033536032536032535032534034534033535033535034536036565035567035566035565035565037565037566036565038658036657037657037656038656039654039655039656041596040598040597040596040596042596042597041596047465046465046464045464046464047465047465049466047663045663046662046661047661048661047661048661047073047072046071047070048070048071048072049072048165047167047164047163048165049165050165048165052172051172050171050170051170051169051171052172051565050565050564050563051563051564051564051565055448052449052447054445054445055445054447055447054591053593053592054590054591054591055592056593058630057630056630057630058630059630058630059630061585060587060586060585060585061584061585062585062135061135061134061133062133063133063134063135064528063528063527063526064526064527064527065528066162066161065161066159066160066160067161066162))
 (.node 1 (.leaf 66501065501064502064499066501067501066501067501066528065528064527064527065528066528067527066529067452066452066451067449067450067450068451068452066547066546065546066546066546067546067546067546069462068462069462069461069460071460070461069462072155072154072154071153072153073153073154072154073608071606072606072605072606073606073607073608076569076570075568074567076569077569076569077571077515000000076514075514000000077514000000077516083158082158083158083157084157085157085158086158085428085429085428084428086427086426087428087429085624084624084623084622085622085622085623085624088117087119088116087115088115088115088117089117090401089400089400088400089400090400090401090402089489088489088488088487088487090487090488089489096195095193096193095193096193096192096194096195097483096483096482096481096481098481097483097483099535098535097534097533098533099533099534099535105570103569103568103567105568107567105568106568112177111177111176111176112175113175113176113177112131111131112131111131113130114130113130114132114450114449113449114448000000114447116449116449118502116501117501116501117501118501119501119502123550121549122549120549123549124548123550124550123161123161122160123159123159125159125159125161126560126560124560126559125560128559127561127562131536130536130535129535129534132535132536131537000000000000000000000000000000132463131463132463136559135557136557136556137556138557138557138558140561138560139560138560139560139560139561140562147360146360146359146359146359147359147360148360147552146552146551146550147550148550000000000000)
 (.leaf 152387151387151386151385151386152386152387153387162235162236161235161234163234164234163234165235162421162420161420161419162419163419163420163420176397174396175396175396175396177394177395177396186240185239185238184238186237186238186239186240185255183257183255183255184254185254186256185256186216184216185215186213186214186214186214186215185250185251184250185249186249187249186249187251188412188413186411186411187411188412188412188412188262187262187262187260188260189261189261190261197233196233196231196229198231198230198231198232197280197281197280198279198279198278198279198280211421211421210420211419211419211418211419211421221411221411221411221410221411221410221411221411230250230251229251230249230250231250232250231250237395237395236394236393236394238393237395237396248640247640248639248639249639249638250639248641020314019314019313019312020312020311020312021314033535032535032534000000033533034533033535033535036564035566035565035564036564036564037565037566038659036659036657037657038657039655039656039659040598039598039597039596040596040596040596041596046464045464044464045464046464047464046464046464046071046071046070046069046069047069048070047071047168046168047167045166047164047166048165048166046664046664045663046662047662047661048661048662052173051172051172050171051171051171052172052173051564050564050563050562051562052562051564051564054446052447054445053444053444054445055445054447056593054591055591054591054591055590057591057593057630056630055631056630057630058630057630058630060587059587058586059585060585060585060585061585)))))
 (.node 8 (.node 4 (.node 2 (.node 1 (.leaf 61136059135059134060134061134061134062135062136065501064501064500063499064499066501065501066501065528064528064527064526064527065528065528066528065162065163066161065161066161067161066162067163067453067452066452066451067451068451068452067452066547066547066546065546067547067546067546067548069461069462069461068459069459071460071460070461072156072155072154072154072154073154072154072156073608071607071606072606072607073607073608073609075568075568074567073566075568076568076569075568000000075515000000075513075514000000076515077515086158083158085157084157085157086157086158087158085427085428084428085426085425086425086426087428084624084625084624084623085623085623085624086625088116088116087115087114088114089114088115088117089488088488088487088486089486090486090487090488090402090401090400089400090400091400090400091402096196095194095193096193096194096194096195096195097482096482096481095480096480097481098481097483098536098535098535097534098534099534099535099536104571103569103569103568105569105568106568105571112177111178111177111176111177113176113177113178112130112131111131000000000000113128114130113130116449114450115448000000114447116448116449117450119502118502118501117501118501119501120501120502123551122551121549122549122550123550124550124550123162123162123161124160125159126160126161126161127562126560127560125560128559129559128559127561131538130537130536130535130536132536131537132538138558136559137557137556138557139556139557138557139561139562138560139560139561139561140562140563148360147360147359146359147359149359149360149361)
 (.leaf 147550147550147549148549000000000000000000162237160236160235161235161235162235162235162236162422161422162420161420163421163420163420163422177396176397176396175396177394178395178395178396183257183257182255182255183255184254184255185255186241185241185239185238185239186239186240186241185251184251184250184249185249186249185249185250187216185217184216185215186215186214186215187217188413185412185412185411186411187411187412188412189260187262187260187259189260190260189261189261196233196234195231195231196231197232197233197233197282197281197281197280197280197280197280197281211422211421211421210420211420211419211421211421231250230250231250230250231250233249233250232250237394236394236393237392000000000000238393237395248639248639248639247637248639250638249638250639152387152387152387152387152387153387153388153389020315019315019314019313020313020312021314021315033535034534033533033532033533035532035533035534035567034567034564035565035565035565036564036565038660037660036659036657038658039656039659038660039598039599039598039597040597040596041596041599045464044466044465043464045464046464045464046464047070046070046069046068047068047069047069048070046168045168046168047167047167048165048166048167046664046665046664045663047663048661048662047664051563050563050562050561051561052561052562051564052174051172052173052172052172054172054172053174054445054445053444052443053444055445054445055445055592054594054591055591055592057591057593056594056630054630054630054630056630057630056630057630059587059588059587058586060586060585061585060588))
 (.node 1 (.leaf 61137059135059135059134061135062135062136061136064527063527063526063525063525064527064527064527065164065164065163066161066162066162067163067164066547065549065546064546065546067547066547066547067454066454067452066452067452068452067452068454069460069461068459069458069458071459071460071460072157072155072155072154072155072154072156073157073610072610073608073608073608074608073609074610074567073567073566072566074567074567075568074567076514000000075513074513000000000000000000076515085158084160083158085157085158086158087158086158084625083626084625084624085624085624086625086626087428085427086427085425086425000000000000000000088115087115087114087113087114088114089114088115088487088487088487088486088485089485089486088487090403089401090401090400090401090400091402090402096481094482094481095479096479096480096480096481100536098537098536099535099535100535100536101536104571103572103569103569105570106568105571105571113130112130113130000000113128114128115129114130117450115451116449116449116449116449117450117451120502119502119501118501119501121501121501121502124550123551123550122550123550125549124549124550125163124163123162125161126161126161127162127162126563126563126560127560127561128559127561128563132538131538131536130536132536132536133536133537138557138558138557138557139556139555140556140559140563139561140561139561139561142560142561141563148360146360147360147359147360149360149361149361000000000000148550148549000000000000000000000000153389152387153387152387153387154387153387153389162238160237160236160235162236162235162236162237)
 (.leaf 161422161423161422161421161420163421162421162422178395177395177394177394178394179394179395179396183257182257182256183254182255183255183255183257187217185218185217184216186216186215187217187218185412185411184411184410185411186410186411186411187262186261186260186259187259189260188260189260195234194234194233195233195231196233196233196234197283197282197281197281197281197280197281198283211423211423211421211421211421211421211421211422232250231250232250231250233249234248233249233250236394236394236394235392237392000000236394237394250639248639249639248639250638251638250638250639095197095197095194095193096195096195096195096196020316019316019315019314020314021314021315021316034533033533033532033531034533035531035532035533034568034568034567034564035566036564036565036566038661037661037660036659038659039659038660039661039599039600039599039598040598041596041599040599044466000000000000000000043464045464044464045464046069046069046068046068046067047067047068046069045666045666045665045664046664046664046664047664046168045169045168046168047168048166048167047168051562050562050561050560051560052560052561052562052175052174051172052173052173054172053174054175053444052444052443051443052443054442053444053444055631054631054630054629054630055631056630056631055595055595055592056593057593057593058593057593060589058589059588059587060587061585060588060588060137060136059135059135061136062136061136061137064526063526063525063524063525064525064527064527065164065163063163064162066161066162065162065164066546065546064546064545066546066546067547066547)))
 (.node 2 (.node 1 (.leaf 67455067455066454067452067453067452068454067455069459068459069458069458070457070457071459071460072158071158072155072155072156072156073157074158073566072566071566072566073566074566074567073566074611072611072610073608073609073609074610073610000000074514000000074512074513000000075514076514086158085158086158085158086158087158088159087158086426086427085425086425086424000000000000000000088114087114087113087112088112089114088114089114088486088487088486088485088484089484089485089486090404089402089401090401090402091402090402090403094481093481093480093479094478096478096479095480095197095198095197095194096196096195096196098197100538098538098537098536099536100536101536100538103572102573103572103569103569104571104571104572114130113130114130113128114128116130116130116131118452116452117450117450117450118450117451118452121502120502120501119501121501122500122500121501124550124550124550123550125549126548125549125550127162125163126161126161126161127161127162127163128563127563126563126560127562127561128563127564132539131538131538131536131537133536133537132539140559138557139557139556139555140555141557140559139564140562139561140561140562142561141563142563149361148360148360147360149360150360149361150361000000000000160237160236162237162236162237162238162420161422161421161420161419162419163421162421179396178395178395178394179394180394180395180396185411183412183411183410184410185411185411185412187218187217187216186216186215188216188217188218186261185261185260185259186259187259187260187262195235194235194234194233196234196233196234196234)
 (.leaf 198283196282197282197281197282197281198283199284211424211423211423211421211422211421211422212422233250232250233250233249234248234248235250235250236393236394235392235391000000000000000000236394249638249639248639248636249636251637251638250638000000153389152387153387153388153387153389153389020317019317019316019315020315021315021316021317033533000000000000000000033531034533033533034533035567034569034568034567035567036565036566036567038662000000037661037660038660038660039661038662039600038600038599038598039598040598039598039599043467000000000000000000044465044464045464044466046068046068046068046068046066047066047067047068045169000000000000000000046168047168046168046168046665045667045666045665046665046664047664047665051561050561050560051560051559051559052560052561052176052175052174051172052174053174054175052175052443051443051442051441053443053443052443052443054630053630054629053628054628054630054630054630055595054594055595055592056594058593057593057594058589057589058588058587059587060587059587060589061137060137060136059135061137061136061137062137063525062525062524062523062524064525063525063525065165065164065163063163065163065162065164065164065546064546063545064544064545066546065546066546068456067455067455066454067454068454067455068456073159071159071158072155072157073157074158073159072566071566070566071566072566073566072566073566074611072612072611072610073610074610073610074612075513000000074512073512000000000000000000075514086425085425086425086423000000000000000000000000087114085114086113086112087112088112087114088114))
 (.node 1 (.leaf 87158086158087158086158087158088158088159089159088485088486088485087483088483089483089484089485090405088403089402089401090403090402090403091405095479093480093479093478095477096477096478096479100538100538100536099536100536101536100537100537103572101573102573102570103572103572103572104572116130115129114128113128000000116129000000000000118452117452116452117450117451117451118452118453121501121502121501121501122500123499123500122501124549124550123550124548125548126547126548125549126563126564126563124562126563126563128563127565127164126164127162127162127162127161128163128164133540132539132539132538133537134537134538134539141557140556139555140555141555142554141555142557141563140564140562139561140563141563142563142564150362149362149361149361149361150361151362151362161422161421161421161420161420161419161420162420000000000000000000160237162238162237162238162238180396179396179395179394180394181394181395181395183412183411182411182409183410184410184411185411185261184262184261185258185259186259186260186261187219187218187217187216187217188217188218188219194235193236193234193233194233196234195234195235198283197284196282197282197283198283199284199284211425210425211423211423211423211422212422212425233249233250233249233247234248234247234248235250000000237392000000000000000000000000000000000000250638249638250638249636251637000000000000000000095199095198095197095195095197095197095197095198153389153389153389152387153389153389153389153389020318019318019317019316020316021316021317021318033532000000000000000000032532034532034533033533)
 (.leaf 34570032570032568032568034568034568035567035568038663000000000000037661038661039661038662039663038601038601038600038599039599039598039599040601043467000000000000000000044466045464044466044466000000000000000000000000000000046168045168045169044668044668044667044664045666045666046665046666046067046068046068046066046065047065047066047067051443050445051442050441051441053443051443052443051560050560051560050560051558052560051559052560052177052176052175052174052175054175052175053175054629054629053628053627053627055629054630054630055595053595054594053595055595055595055595056595058590058590057589058588059588059587060589059590060137059137058136059135059135061137060137061137063524062524062523062522062524064524064525063525064546063546063545063544064544064545064546065546065166065165065164065163065164065164065164066166068456066455067455067455067455067455068456068457071566069567069566070566071566072566071566072566073159072159071159071158072158074158073159073160000000073513000000073511073512000000074513075513075612073611074611074611073610075611076612076613086424086425086423086423000000000000000000000000087113086113086112000000000000000000088112087114088159087159087158088159088159089159090159089159088484088485087483087482087483089482089483089484091405090405088403089402090404090403091405092405093479092479092478092477093477095476095477094478100537100538101536100536101536101536101536101537101574101573100573100572102573102573103572103575000000116131116130116130000000000000000000000000118454118454118452118452118452118451118452118453))))
 (.node 4 (.node 2 (.node 1 (.leaf 123500122500122500122499123499123498124499123500125549124549125549125548126547126547126548125549128165126165126164127162127163128163128164128165127565126563127563126563126563128563127564127564139564139564139564138562140562139564141563140564140555139555140555140554141554142554142554141555151362150362150361149361150361150360151362152363161423160423161421161421161421161420162420161422181395180396180395180394181394182393182394181395183411182411181411182409182409183410183411183412184262183261183260183259185258185259185260185261188220185220187218187217187218188218188219188220193236192235193235192233193233194233194234194235199284198283198283197283198283200283199284199285211426211426210425211423211424212422212425213426234248234248234248233246234246236247234248236249000000250638251638251637000000000000000000000000094200094200095198095197095198095197095198097200020319019319019318019317020317021317021318000000033531000000000000000000034530034529034532034533000000033571032570032568034569035567035568035569038664000000000000000000038662038662039663039664039602038602038601038600039600039599040601040602000000000000000000000000000000043467043467044467044669044669044668044667045667046665046666046667046066046068046066045066047065047064047065047066051442051442050441050440050440052442053443051443051559051560050560050559051557052557052560051559000000052176052176052175052176052175053175053178054594053596053595053594054594055592055595054594054628053628053627053626053627054627055629054630058591057591057590057589057589058589058590059591)
 (.leaf 60136058136059135058134059135061136061137060137062524061524062523061522062522062524062524063524065167064167065165065164065165065164066166066167068458067456068456068456068456069456069457068457069567068568068566069564070566071566070566071566073161072159073159073159073159074159074160075160074512000000073511073510000000000000000000074513074614073614073611074611074612076612076613076613087112086112000000000000000000000000000000088112088483087483087482088481089481089481089482089483089159088159089159088159089159091159090158091159091407090406090405088403090405091405092405092406092479091479091478091478092477093477093478093479094200094201094200095198095199095198097200097200100539099539100538100536101536100537100537100538101573100573099573100571100572102573101573101574118455118455118454118452118453118452118453119455124499123499123499123498124497125498125498124499126548126548126547126547126546126547126549126549000000000000126165126164127164128164128165000000127564127565128563126563128563129563128563129565140564139564140564140562139564142563142564142565141555140555141555141554142554143555143555143556152363151364151362151362151362152362152363153364160423160424160423161421161422162420161422161423182411181411181410180410182409182409182411183411183263182262183262183261183260184261184262184263187221185221185220187218187219188219188220188221192235192236192235191233192233193233193234193236200286199285199284199284199284201284199285201286212427210425211426210425211425212425213426212427234247234248233246233245234245236245236247234248))
 (.node 1 (.leaf 19319019318020318021318000000000000000000000000000000000000000000032532033531033532000000000000033571032570034570035568035569035572038603036603038602037601038601038601039602040601000000000000000000000000038663039663039664038664044670043668042668042667044668044668044669045670046065046066045066045065046065047063047064047065051441050441050440000000050440052441052442053443051558050560050559050558051556051558052557052560000000051179052176052176052177053175053178000000053597052597052596052595053595053595054594053595053627053628053626053625053625054627053627053627058592058592057591057590058590058590059591059592059135058135057134058133059133059134059135059135062523062523061522061521061522063523062524062524065168064168064167065165065166066166066167066168069458067457067456068456068457069457068457070457068568068568067565068566069564070566069566069567073162072162072159073159073160074160075160074160000000072512072511000000073510000000073512074512076613074614075612074612076612076612076613077613087483086483087482087482088481089481087483088483091159089159090159089159091159091159091160092161092406091407091405090405091405091405092406092407091479090479090479091478091478092477092478092479093201092202093201094200094200094200094200094201100540099540099539100538100538100537100538100539100573098574099574098571100571100572100573101573119456118455118455118454118454118453119455120456123498123499123498122496123496124496125498125498126547126547126547126546126545127545126547126549126565125565126563127563128563127564127564127565)
 (.leaf 128165128165000000000000000000142564141563139564140563141563142561143563143565143555142554142554142553143553144553143553144555153364152364152363152363152363152362154364154364161423159424160424160423161423161422161423161424181411179411180410179410180410182409181411182411182262000000183261183260183261183260183261183263187221186221187221188220188220188219189221188222192236191237192236192235193235193234193236193236200286199286199285199284199285199285201286200287212427211427210425211426211426213426212427213428234246233246233245233244234244236245236245236247000000000000000000019319020319000000000000000000038604036603036603038602038602039602040601038603000000000000000000000000038664039664038664039666044671043669043668042668044669044669045670044670047065046065047065046065047063048065048066047067050440048440000000000000000000050439050440050440051557050559050558050555052555052555051558052557052597052598052597052596053596054594053595054596053626053626053625052624053624053626054627053627057134057134056134056133057133058132059133058134059593057593058592057591058591059591059592060593062522061522061521061520061521062522063523062524064169064169064168064167065167066167066168065169069458068458067457067456068458068457070457069458068568066567067565067564068566069564068566068568073163073163072162072159073161075160074160074163073511072511000000072509072510000000000000073512077613075615076613076613076613078611078614078614087482087482087482087481088481089480089481087483090158090159089159089158090158091158091159091160)))
 (.node 2 (.node 1 (.leaf 92407092406092405091405091405093403093404092407094201092202092202093201094201094200094201096201098574097574098574098571098571100571099573100573099540099541099540099539100539100538100539100540119456118456118455118455118455119455120456120457125498124497123496123495125496126495126496126498126546126547126546126545126544127544127545126547126565126565125565126563127565127564127565127566143565142564142563141563142561144563143562144565143557143556143555143555143553145554145555144555154365153365153364153364154364154364154365155365159424158424159424159423160423161423160423161423181410180410179410179408181408181409182409181411182262000000000000183261183262183261183263183263187222186222186221187221188221189221188222189223191237190237191234191233192235193235192235192236000000200287200286200286201286000000000000000000213428211427212427212427212427212427213428213429234245233245233244233243234243236243236245236245090479089480090479090478091478091478091478091479037604037605036603036603038603040601038603038604044672042671043669043668044670045670044670045670047064047065046065047064047062048062048065048066051556050558050555051556052555052554052555051558053597052599052598052597053597053595054596054597053625053625052624053623053623053623053626054627058133056134056133057131057132059133058132059133059593058593057593058592058592059592060593059594061522060522060521061520061520061521061522062522064169063170064169064168065168066168065169067169067565066567066566065564067563068563068566067565069458069458069458068458068457071457070457071459)
 (.leaf 72164072164073163072162073162074160074163073163073510000000072509071509000000074508000000000000078614077613077613076613078611078611078614079614089481088481088481088480089480000000089480089481092161091159090158091159091159092159092160092161092408092407092406092405092406093404092407093408092202092203092202092201093201094201093201094201000000098576097574098574099574099573100573099575099541000000099541099540100540100539100540100541000000119457119456119456120456000000000000000000124496123496123495124495125495126495126495126496126545126546126545125545127544127543127544127545126565124566125566126564126563127565126565126565144565143565143563142561144563145562143564144565144555143557144555143553145554000000146555144555155365154365154364154364154364154364155365155366159425159424158424159424160424160423161423161424180410179410178410179408179408181408180410181410000000000000000000181262183261183262182262182262186222186223186222185221187221188221187221187222191237190238190237191234192236192235192236192237000000000000200287200286200287000000000000000000214429212430213428213428213428213428213429215430234244233244233243234242234242235242236243236245089480000000089480089479090479090479090479090480038604037606037605036603038604038603038604040605044673043671042671043669044671044670045670045671047063046065047064046063047061048061048062048065052555052555052555051555052553053555052555053557052599052599052598052596052597053597052597053597053624052624053623052622053622053623053623053626056134056133056132056131057131057132057133058133))
 (.node 1 (.leaf 60594058593059593059593060593059592060594060595061521060521061520060519061519061521061521061522064171063171062170063169064169064169064169065171067564066566065564066564066562067563068563068566070457070457068457069457069456070456072457072457000000071510000000071508071509000000072510073510079615078615078614078614078614079614079615080615092161090162091159090158091160092160092161093161092204091204090203090201092202092202092202092203092409092409092407092406092407092407093408092408098576098575097575097574098574099574098574000000000000099541099541098540099540100540099540099541000000000000000000120457000000000000000000000000126496124496125496125495126495127495127496127497124566123567123565125564126564126563125565126565126544126545125545125542127543127542127543127544143562143563142561143561144561144560145562143564144555144555145555145554000000000000147555146555155367154365154365154364154365155365155366156366159424157425158425158424159424160424159424159425179410178410178409178408179408179408179410180410186223185223185222185221185221187221186221186222190238190239189238190237190237191237191237191238214430213430212430213428213429213429215430215430234243233243234242233243235242236242235242236243073163071163072164073163073163074163073163073163089480089480089480089480089480089480089480089480037606036606036605036604036603038604037604038604043674043674043671042671044672045670045671045672047062047064046063046062047060048060048061048062052554052555051555051554052552052553053555052555052600052599052599052598052598052597053597052599)
 (.leaf 53623053623052622052621053621054621053623053623060595059594058593059593059594060594060595060596061520061520060519060518060518062520061521061521062171000000000000061170062170063170064171063171067563065564066564066563066562069562067563068563072457070457071457069456070456073457072458072459072164071166070164070164072164072164073163073164072509000000071508070508000000073507000000072510080615079615079614078614079614080614080615080616092161091163092161092161092161094161093162094163092205091205091204090203092203092202092203092204092410092410092409092407092408093408092408092409098575095575095574095572097574098574097574098576099541098541099541099541099541099540099541099542125566123568123567123565125566125565126565125567127496126495126495126494126495128494128496128497127544126544127544127543127542127543127544127545144565144565143562144563145562146562144563146564146555144555146555000000000000000000000000146556156366155367155365154365155365155364156366156367157425156425157425157424158424159424158424159424178410178410177409177408178408179408178410179410186224186224185223185222186222186221186222186223189239189240188239189238189238190238190238190239215430214430214429213429213429216429215430216431234242234242233243234242235242236241236242235242056133056133056133056131056131057131056133056134036607036607036606036605037605037604038604038605043674043675043674043671044673045671045672045673047061046063046062046061048060048059048060048061052553051555051554051551052551053553052553053555052601051601052599052599052599053597052599052600))))))
 (.node 16 (.node 8 (.node 4 (.node 2 (.node 1 (.leaf 53622052622052621053620053620054620054621053623060596060595060594059594060594062593061595061596061519060519060518059517062519062519062520061521063173000000000000000000063171064171063171064173066564065564064561064561065561067562066562066562070164069164070164069163071163073163072164071163000000071510070508070507070508000000071509072509072459072457072457070456073457073457074456073457079615078615079615079614079615080615080616080617092411092411092410092409092409092408092409093411094163092161093161092161094161094161094162094163097577097576095575095574097575097574098576097576123568122567123567123566123565125566124566125566128497127496127495126495128494129494129495129496127543127544127543127542127541127541127543127544143566143565143565143563143562143564144565143566146556146555147555000000000000000000000000147555156367155367155367155365155366156366156367157368158425157425156425157425158425158424159424159425178409177409177408177407177407178408179408178410185224185225186224185223186223186222186223187225190241188240189240188239190239190238190239190240216431215432215430215430215430215430217431216432235242234242235242235242236241237241237241237242056132056133056131056131057130057130057131056133092206092206091205091204092204092203092204092205036608035606036607036606037606038604038605038606042676042676041675042672043674043674043674043675047060046062046061046058048060049058048059048060052552051554051551051550051550053552053553052553052602051602051601052599052600052599052600052600053621052621053620053619053619054619054620054621)
 (.leaf 60518059518059517059516059517061518062519060518060597059597060595060594060595061595061596061597000000000000000000000000000000063171062171063173065564064564065564064561066563066562066562067563070164069166069165068164070164070164070164071166071508070508070507070506000000071507000000071509073460071458072457072457072458074456073457073458080617079615080615079615080615081615081616081617091207092206092206091205092205092204092205092206092412091412092411092410092410092409093411092411094164092164092161093161093162094162094163094164097576097577098575097575097574098574000000000000122568122569122568122567123567123567123568123568127542127543127542127541127540127541127541127543129497128498128497128496129495129496130496130497143566143567143566144565144565146564144566144567157368156367156366155366156366156365156366156367157425156425155425156425157425158425157425158425178408177408177407176406177407179408178408179408185226185226185225186224186224186223187225186225188240187241187240188239188239190239189239190241217432215433216431216431217431217431000000000000237242235242236242236241237241238241238241238242056131056131056131056131056131057129057130057131036607035609035606035605036607036607036608036608043677042677042676041675043675043674043675044677048060047060048060048060049058050059049059050060052551051551051550051549051550053551053552053553052603052602051602051601052601052600052600052601053620053620053619053618053618053619054619054620059517058517059516059516058515059516059517059517059598059598059597060595060596061596061597060598))
 (.node 1 (.leaf 66566064565064564065564066564066562067563067564069166067166068165067164068164070164069164070164070508069508069507069506070506000000070508071508073460071459071458072457072459073457073458073459081618079616079615080615080616081616081617081618091412091413091412092411092411093411092411093411094165094165094164094163094163095163095164096165098578098577097577098575098576000000000000098577122569122568121568121567122567123567122567122568127541127542127541127540128539128539127541127541130497129497129496129495129496131495131495131497143568143567143566143565143566143566143566144568157368156368156367156366156367156366156367157369156425155425154425155425156425157425156425157425177407176407177407176405176406177405177407177407185226184226183225183224186224186224185224185226188241187242187241187240189240189239190241189241000000000000215433216431216432000000000000000000238241237241237241237240238240239240238240239241057130057130056131056130057128057129057130058132092206091208092206092206092206092205092206092206035606034606000000000000035604036606036607035606042678041678041677041676042676042676043677042677048059048060048060047057047059049057050059049059051550050552050551051550051548051549051550051550052604051602052602051602052602052600052601052602059516059516059516058514058515060516059516059517060599059599059598059597060597061597060598060598064565063565064565064564065564066564065564066566068166067166067166068165069165069164070164070165070507069507069506068507069506000000000000070508073460073460073460073460073458073458074459074460)
 (.leaf 81618080617079616079615080617081617081618081619090209089208091207089207092206091207092206092207091413091414091413091412092412092411093411093414094166094166094165094164094164095164096165096165098577097577097576095575098575098576097576098578122570121570122568121568122568122567122568122569127540127541127540127539128539129539128539127541131497130497130496129496131495132495132496132496144568143568143567143566143567143566144568144569155425153425153425154425155425156425155425156425158369156368157368157368156367157367159369159369177407175406175405175404175405176404176406176406184226184227184226183225185225185224185226185227187242186242187241187240187240189240188240188241000000000000217432216432000000000000000000000000239241238241238241238240239240240240239240240241057129056131056130057129057127057128057129057130035605000000000000000000034603036605036606036607042679040679041678041677042677043677042677043677050059049058047059047056049056049056050057050058051549050551051550050549051547052549051549051550052605052604051602052602052603052601052602053603057128056130057129056128057126057127057128057129059516057515057514057513058513059515058515058515059600058598059599058598059598059598060599060600063565062565063565063564064564065564064564064565069168068166067166067166069166070164070165070168070506069506068507000000069506072505000000000000073459073460073460072459073457074457073458074459082620081619081618081618081618081617083619082620090209090210089208091207091208092206092207092208091414090414090413090412091412092412091412091413)))
 (.node 2 (.node 1 (.leaf 94167094167094166094165094165096165096165096166097577097577097577097576097577097576098578098579122571122570121570122568122569122568122569122570128539128539128539128539129539130539130539130541132496131495131495000000000000000000000000000000143568143569143568143567143568144568144569145569153425153425152425152424154425155425154425155425157369156369156368157368157369159369159369158369176405175405175404175403176403177403176404176406184227184228184227184226185226185226185227185228187243186243186242186241187241187241187242187242238240238241238240238238239239240239240240239240035604000000000000000000034603036604036605036606042680040679040679041678042678042677043677042680049057047059047056048055049055050057049056050057051548051550050549051547051546051547052549051549052606051606052604051602052604052602053603052605057127057129056128057126057125058125057127057128058514057514057513058513058512058514059515058515059601059601058598059599059599060599060600060601065565063565062565063565064565064564064565065565068166067168067167067166067166069166068166069168069506068508000000068506000000069506069506070506073458073460072459072458074456074456074457073458081619080619081619081618081619083619082620082621089211088211088209088209089208090209090209090210091415090415090414090413091413091412091413091414095167094167094167094166094166096165096166096167098579097577098577097577097576000000098577098578121572121572122570121570122570122569122570122571130541128539129539129539130539131538131539131541000000132496132495000000000000000000000000000000)
 (.leaf 145569143568144568143568144568144568146569146569153425151426152424151424152424154425153425153425158369157369158369157369159369159369160369160369175405175406175405174403175403176403175405176405184228183228183227183226184226185226184226184227239240238240239240239239240239241239241240240240000000000000000000000000000000035601034603034603042681040680040679040679042679043677042680043681049056047056048055049055049054050056050057049056051547050549051547050547051545051546051547052549052607051607051606052604052605053603052605052607057126056128057126056124057124057125058125057127058513057513058513057511057512059511058514059515058601058602059601058598059600060600060601059601063565062565062564062563063565064565063565065565067168066168066167066166067166067166067166068166068509067509066508067507000000068507069506069507073457072459072458073457073457075456074456074457083621082620081619082620082620083618083621084621089211089212088211088209090210090209090210091210090415090416090415090414091414091413091414091415095168094167094167094167094167096166096167096167098580097578097577098577098578098577098578098579121572120573121572122570122571122570122571123571131541130541130539130539131538132539132539132540143569144570143568144568144569146569146569145569151426150426151424150424151424152424152425153425160369158369159369159369159369160369161369161369175404175405174403173402175402176402176403175405185229183229183228183227184227184226184227184228240240239240240240240239241239242239242240242240042682041680040680040679042680042680043681042681))
 (.node 1 (.leaf 49055048055049055048053049053049055050056050057051546051547050547051545051544052546051546051547052608051608051607051606052606052605052607052607057125057126056124057123057123058125057125058125058512058513057511057510057511058511059511058514059601058603058602059601059601060601059601059602062565062567062565061563062563063565062565063565067169065169066168066167067167067166068166068169067509066509067509066508068508069506069507069508074456074456073457073456075454076454075455075456081623080621082620081619082621083621084621084622088212088213088212088211088211089211089211090213090415089416090416090415091415091414091415092417096167095168095167094167096166097167097168097168099581096580097578097577098579098578098579099581120573120574120573121570121572121572121572121572132540131541131539131538132539132539133540133540145569143569145569144569146569146569147569147570152424151424150424151424152424153424152424152425161369160369160369159369160369161369161370162370175403174403173402174401176401177401176402176403185229184229183229183228184228184227184228185230242240240240241240241239242239243239242239243241041682000000041680040680042681043681042681043681049054049055048053048052049052051052049055050056051545050547051545051543051543052543052546051546052609051609051608051607052607052607052607052608057124056124057123056124057122058124058125057125058513056512056511056510057510057511057512058512058603058602058602057601059601059601058601059601062564062565061563061562062562063564063565062565067170067169065169066168067168068166068169068170)
 (.leaf 69509066509066509067509068509069507069508070510075456074456075456075454076454076454076455076456084622081623083621082621083621085621084622084623088213087213088213088212089212089211090213089213089416089417089416089415090415091415090415090415097168096167096167096166097167097167097168098168099582097582096580097578098580098579099581099582120575120574119572120572120573120573120573120574133540132540132539132539132539134538134539134541147570145569146569146569146569147567147570148570151424149425149424150424151424152424151424152424162370161369161369160369161369161369161369162371175402173402174401175401175400176400177401176402186230185230185229185229184228185228186230186231243241242240242240242239243239243238243241244241041682041682000000041680042682042681043681042682049053048053048052049051050051050051051052049055051544051545051543051543050542052542052543052546052610051610051609051608052608052607052608053610057123057123056124056123057121057122058124058125057511056511056510056509057509058511057511057512058604057604058602058602058602058601059601059602062563061563061562060561062561063563063564063565067171066171067169065169067169068169068170068171066509066509065508065507067509068509067509069509075455075456075454075454075453076453076454076455084623084622084621083621085621085621085622085623087213087214088213088211088212089212088212088213090418089418089417089416090416090415090415000000098169097169097168097168097168099168099169099169100582099582099582099581099581101580101582101582119575119576120574119572120574120573120574120574))))
 (.node 4 (.node 2 (.node 1 (.leaf 134541133541133540133540134539135539135540000000148570147570147569146569147567149569149570148571149425148425148424148423150424151424150424151424162371161371161369161369161370161369162371162372177401176401175400175399176399177399177400177401186231185232185230185229185230186230186231187231242239242240242239242238243238244238243238243241041682000000000000000000041680042682041682041682049052048052049051048050049050050050050051051052051543051543051543050541051541052541052542052543052611051611051610051609052609052608053610053611057122056124056123056122057120059122057122058124057510056510056509057508057508057510058511057511058605057605057604058602058603059601059602059605062562061562060561062561063560063560063563063564066509065509065508065507065507067509066509066509066172066172066171067169067170068170068171068172076454076454075453076453076452076452077453078454084624084624084622084621084622085622085623085624087214087215087214088213088213088212088213088214089418089417089416089415089416090416089416090418099169098169098168097168099168099168099169100169100582098582099582099582099582101582101582100582121576118576119576120574120575120574120574121575000000132542134541134541135540000000000000000000147570147570147570147569147570149570148571149571148425147425148425147423148423150424149424149425162372162371162370161370161369162369162370162372176400175400175399176399176398177398177399177400187231186231186230185230186230186230186230187232243241242239243239243238244238245238245239245240050051050051049050050049050049050051050051051051)
 (.leaf 51543049542050541048540050540052541051541050542051612050611051611051610052610053610053611052612057121056123056122056119057119057120059122057122057509056509057508057508057507058507057510058511058606058606057605057604058604059602059605058606062561060561062561061559062559063559063560063563065508064508064507064506065506065507065507065508067173066173066172066171067171068171068172068173076453075453076453076453077451077451076452077453084625084624084624084622084623085623085624084624087215087214086214086213088213088213087213087214089419089418089417089416089417089416090418000000100170099170099169099169099169101169101170101170100582100582100582099582101582102581102581101582118576118577119575117574120574120575119575121576147425146426147425146423147423148423148424148425149571147570148570147570149570149570149571150571163373162372162371162370162371162370162372163373176399175399176399176397177397178397177398177399186233186232186231186230186231186230187232187233243238243239243238242238244238244238245238245239050050049050050049049048050048051050050051050051050541050541048540049539049539051539052541051541051613050611050611051611052611053611052612053613057120056122056119056118056118057120057120059122057508057508057508057507057506057506058507057510058607058607058606057605058605059605058606059607063560063560062559062558062559064558064559063561065507064507064506064505065505066507065507065507066174065174064173065172066172066172067173066174076452076453076453075450076452078451077451076452083626083626084624084624084624085624084624084625))
 (.node 1 (.leaf 86215086216087214086214087214087213087214087214000000000000089418089417089418090418000000000000101170100170100169099169101169101169101170101171101582100582101582101582102581103581102581102582119578118578118577119575119576119575121576121577149425146426146426147425148425148424148425149425149571147571147570148570148571149571150571149571163373161372162372162371162372162372163373164373176398176399176397176397177396178396178397177398187233186233187231186231186230188231188232188233245239243238244238244238244238245238245239246239050049050049049048049047050047051049051050050051050540048540049539048539050538052539051539052541057119056119056118056117056118058119057120057120057507057508057507057506057505057505057506058507058608058608058607058606058606058606059607059608063559062559062558062557063557063557064558064559065506064506064505064504064505066506066507065507065175000000065174064173066173067173066174066174077451077451076452076449077449077450079451078451084627083627083626084624084625084624084625085627087215086217086216087214087215087214087214088215000000000000000000089418089419000000000000000000101172100172101170101170101170103170103170103172102581102581102581102581103580103581104581103581118578118577117577117574119575119576118576119578146426146427146426146423147425148425147425149425149571149571149571148571149571149570151571151572164374162373163373163373163373164373165373164373178397177397177396177395178395179396178396178397187234186234186233187231187232188232188233187233246239245239245238244238245238246238246239246240)
 (.leaf 49539048539048538048537049537050537050538049539050048049048049047049046050046052046051049051050056118055118055117054116056116057116056118056118057506057507057506057504057504057505057505057506058609058609058608058607058607059607059608058608062559061559061558062557062557063557062559063559065505064505064504064503064503066505066506066507065175000000000000065174066174066174066174067174078451077451078451077449077450079449080450079451083628082628082627083626083626083626084627083628086217086215086215086214087214087215086215087215101173100173100172101170101171103170103172102173103581102581103581103580103581105580105581105581117579117579118577117577118577118576119578119579145427144427145427144425146426146426146426146427151572149571150571149571149570151571152571152572164373164374164373163373164373165373166373166374178396178396178395178395179395180395180396179396187235187235186234186233187233188233187233188235246240245240245239245238245239246239246240247241048539047539047538047537048537049537048539049539050047049047049046048046050045050047052046051049056117055117054116055115055116056117057116056118057505057506057504057503057503058505057505057505058610057610058609058608058608059608058608059610062558061558062557062557063557063556063557062559064505062506063506062503064503064503064505065505000000000000000000000000000000065175065175066175079451078451079451077450079449081449080452081452083629082629082628082627083627084627083628083629000000086216086215086215086216086215087215086216101174101173100173100172101172103172102173102174)))
 (.node 2 (.node 1 (.leaf 105581103581104581103581105580106580106580105581119579117580117579118577118578119578119579119580145428144427144427145427146427146426146427146429152572151572151571149570151571153570153571153571166374164373165373164373165373166373167373167373179396178396179396179395180395181395181395180396187236186236187235186234187234187233188235188236247241246240246239245239246239246239246239247241048538047538047537048537048536049536049537048539050046049046048046050044050044051046050047052046056116054116055115055114056116057116056117057116057504057504057503057503057502057503058505057505058611056611057610058609058609058608059610059611062557062557062557061555062557063555063556063557064504063506062503062503064502064502064503064505080452080450079449080449080448082449081449081452082630082630082629082628083628083628083629083629000000000000086216086215086217087215086216086217102174101174101173100173101173102173102174102175105581105581105581105580106580107580106580106581117581115580117579115577117579117579119579119580144427144427143427144425145427146427145427145428153571152572152571151571153570154570154571153571167373166374166373165373166373168371168373167373180396179396180396180395181395182394181395180397187237186237186236187235187235188235188236187237246240246241246240246239246240246239247241247242048537047537048537047535048535049535049536049537050045048046050044050044050043051043051046050047054116054116054115054114055114056116055116056116057503057503057503057503057501057502057503058505057612057612056611057610058610059610059611058612)
 (.leaf 63557062557063557062557063555064555065556063557064503062503062503062501064501065501064502064503081449081449080448081448081447082447082450083451082631082631082630082629083629083629083629084629101176100176101174101173101174102174102175102176106580106580106580105580106580107580108581107580118581115582115580117579117580119579119580118582144427143427142427142427144425145427144427144427153571153571153571153570154570154569155571154571167373167373167373166373168371169371169372169374181395181395181395181394182393182393183396181395187238186238186237186236187236188236187237188238248242246243246240247241247241247241248242248243048536048537047535047534047535048535049535049536050044050044050044049044051042051042051043051046055115054115054114054113055113056113056116055116057502057503057503056502057500057502057502057503058613057613057612056611058611059611058612060613063556063557062557062554063554063554064555065556064502062503062501063500064500064502065501064502083451081449082449081447082447083447083450083451082632080632081631081628082630082630082631082631102176101176102174101174102174103174103175102176107580106580107580106580107580108578108581109580118582117583115582115580117581119580118582119583143427142427141427142427142427144425143427144427154571153571154571154570154569156570155570155571169374167373168373168371169371170372170373170374183396182394182393182393183393184392182393183396186238186239186238186237187237187237188238188239000000247243246243246240247242248242248243000000050043050044049044049043049043052041051042051043))
 (.node 1 (.leaf 55114054114054113053113054113055113056113056116057501057503056502057499057499057499057502057502057614056612057613056612057612057612058613058614063555062557062554062553063553064553063554064555064501062501063500062499063499064499064502065501083452081452081449082449082450083450083451083452081632080633080632081631082631082631082631082632102177100176101176102174102175103175102176102176108581108582107580108581108581110580109580109581119583118582118581117581119580119581119582119583142427141427141426141425142427142427142427143427155571154571155571154569156570157570157572157573170373169372169371168370169370170370171372171373182393182393182393181393183393184392184392182393187240186240186239186238187238188238188239187240000000000000248242247242248242248242249243000000051042051042049043050042051042053040052041053043055113054113053113054113055113055113055113056113057500056502057499057498057498058498057499057502057615056613056612057613057613058613058614058615063554062554062553062552062553064552064553063554064500063500062499063498064498064499064499064502081632081632080633080632082632082631082632084633084453082453083452083451083451085451085452084453102178101178100176101176102176102176102176103178109580109580108581108578110579110580110581110582119583118583118582118581118582119582119583119584141427141428141427141426141425142427141427142427155570155571154569154568156569157570157570157572171373170373170372169370170370000000000000000000182393182393183393183393184392185392185394185394186240186240185239186237186238187238186238187240)
 (.leaf 247243000000248242248243249243000000000000052041052041051042052039052039054039053040054041054113053113053112052111054113055113054113055113057499057499057498057498057497057497058498057499057616057616056613056612057614058614058615058616062499062499062498061497063497063497064498063499063553062553062552062551062552064551064552064553081632079633080633080632080632082632081632081632000000000000082453083452083452085452084453085454102179101179101178100176102177102176103178103179110582109580110580110579110580111580111581111582120584118585119583119583119583120583121584120585141426141427141426141425142424142424142427141427157572155570156570156569157570157570158570158571000000171373171372170370000000000000000000000000185394184392184392183392184392185392186392186392186241186241186240185239186239186238187240187241053040053040052039052038053038055040054039055040053113052113052112052111052111054113053113054113057498057498057498057497057496058498057497058498057617056617057616056613057615058615058616057617062553062554061554061551062551062552062553063553063498062498061497061497063496064498063497064498080633078634079634079633080633080633081632081633085455084455000000084453084453086453085454086455103179102179101179101178102178103178103179104180109583109581109580110580110581111581111582111583119586119586118585119583119584121584120585121585141425141426141425141424142424142423142424142427158571157572157570157570157570159569159570158572186392185394185392184392185392186392187392186392186242186242186241186240186240187240187241186242)))))
 (.node 8 (.node 4 (.node 2 (.node 1 (.leaf 53112052112052111051111052111054112054113053113054039054039053038054038054039054038055040056039056618055618056617057616057616058616057617059617062552061554061551061550063550063550062552062553063497061497061497062497062497063496064498063497078634078635078634077632079633080633079633080633086456085456085455085454085454087454086455087456103180101179102179101179102179103179104180104180110584109584109581109580110582111582111583110584121585119586120584119584121584121584121585121586142424142424142424141424143423143422143423143424158572158571158570157570159569000000159571159572186243186243186242186241186241187241186242187243186392186392186392185392186392188391187391187394052111051113051110050110051111053111052111052111055040055040054039055040055040056038057039056040056618056619055618056617057617057617059617059619062551061551061550062550062551063549063550062552063496061497062497062496063496063496063496064498079634078636078635078634079634079633080633079635087457086457086456086455086455088455088456000000104180103180103179102179103179103178104180105181110585109585108582108581109581109583110584110585120587119587119586120584120585121585121586120586142423142424141424141421142421143421143422143423159572158572159570159569000000000000160571160572185243185244186243186242186242186242187243186244187394186392187392186392188391188390187391187394051113050111049110050109050110051111051111052111057039056039055040054038056037058037057038056040055619054619054618055618055618056618056618056619061497060498060498060497062497062497063496063497)
 (.leaf 63550063550062551062550063548064548064549064550078636077634078635077634078634079634078634079634000000086458087457087456088456000000000000000000104180104181104180104180104180106179105181106181110586109586109585108582109584110584110585110586120586120587121585120585121585122585121585122585143423142423143423142421143421143421143422144423159573159573158572159570159571160571160572000000185245184244185244186243186243187243186244186244187391187392186392185391188390189389188390187391051110049110050109050108051110051110051111051111056038055040054038055036056036057036058037057038056619055619054619054618056619056618056619056620060498060499059497060497060497062497061497061497063549062551062550063548063547063548064548064549077636077637077634078635078635078634079634079635105181104183104180105181105181107180107180106181110587109587110586110585110585110584111586111587121586119587120587121585121586121585122585122586143422143423142421142420142421143421143421143422000000000000159573158572159572160572000000000000184244184245184244184243186243186243185243185245187391187391188391188390189389189389188391188392049110049110049109050108050108051110050110051110055619054619053619053617054618056619055619056619056037054038055036055035056035058035057036058037059499058499058499059498059497060498060498062498063548062550063548063546063546064546063548064548078638077638077637077634078636079634079635079636106181105181106181105181107180108180107180107181110588109588109587110586110586111586111587112588119587119588119587119586121585121586120586121586))
 (.node 1 (.leaf 143421142421142420141420142420144421143421143421000000158573000000159573159573000000000000000000185246185246184245184244185244185243185245185245188390188391188390188389189389189388189389188391050109049109050108049109050107051109051110050110054619053619053618052618053617054618054619055619056036055036055035056034056034058035058035057036060499058501058499058499060499060498062498060500063547063548063546062545063545063545064546063548077638076638076637077635077634078636077636078638107180107180107180107179108179109179109179108180110589108589109588109587110587111587112588112589119588118588119588119587120587120586121586121589142421141421141420140420141420142420142421143421185246184246183245184243184244185244184244185246189389189389189389188387190387189388191389189389050108050108049109049108049106051108051109051110053619053619053618052617052618053617053619054619056035055035056034055033055033057033058035058035058501057499058498057497058499060499059499060499063546063546062545061544063544064544063545064546076639076639076638076637077637077636078638078639108180107180108180108179109179110178109179109180109589109590108589109588110588112588112589112590118588118589118588118587119587120587119587119588142420141420140420141420141419142419142420142421184247184246184246183245184245184244185246184246189388189389188387188386190387191387189388191389050107049109049108049105050105051107051108051109053618053618052617052616052617053617053617053619056034056034055033055032056032057032057033058035057499057499057498057497057497058499058499058501)
 (.leaf 63545062545061544062543062544063543064544063545077640076640076639076638077638078638078639079639109179109179109179109178110178111178111179110179111591108590109590108589110589112589112590112591119590119589118589118588119588119587119588120590141420139421140421140420141420141419141420142420185248183247184247185246185246185245185246186248189388190387190387189385190385191385191386190387049108049107048105047105048104049104050105049106053618052619051617052617052616052617052618053618055033055034053033054031054032056031056032055033058498057498057497057496058498059498058499058499063544061544062543061543062544064542063543064544075640074640076639075639076639076639077640076640108590108591107590109588108589110589109589111591111179110178110178110177111177112177112177112179119589118589118588118587118588119588118588119590139421139420138420140419140420141420140420141420183247183248184246184246185246185246184246185248190387189388191387190385191385191385191387191387049105048105047105048103049103050105049104050105052617051617052617052615052615053615052617052618055032053033054031054030055030056030056031056032057497057498057497056497056495058497058498057497061544061546061543061542061543062544062544063544000000075640074640076639076640077640076640000000109592107592108591107590109590109589111591110592112179111179111178111177112177113177113178113179119590118589118589118588118589118588119590120590139422139421139420138420140421140420141420141421184249184248183248184246184247184246185248185249191386191387190385190384192384193385191385191387)))
 (.node 2 (.node 1 (.leaf 47105047104047103047102048102048102049103048104052616052617052615051614052614052614053615052617053033000000000000000000054030055030054032055032057496057497056497055494056494057495058497058498062543061543061542060541062543063543062544062544075640074642074639073639076639076640075640000000107592106592106590107590107590109590108590109592113178112177112177111177113176114176114177114178120590119590119589118589118588119588120590120591139421137421137421138421138420140421139421139422184248182247183248182247184246184247183247184249191385190385190384000000000000000000193385191385048103047103047102046101048101048101048102049103052615052615051614051613051614052614052614053615054031000000000000000000000000055029055030054032056497056496056496055493055493057495056494056495061543061543060542060541060541062543061543062543074642000000073641073640073639076639074640075640109593106593106592106590108591108590109592109593114178113178113177113176114176115176115177115177119590119590119590119589119590120590120591120592139420137421138421138420140419140420140421139421184249183249182247183248183248183247184249184250193385192384000000000000000000000000000000000000048102047102046101047102047101048101048101048102052614051614051613051612051614053614052614052614054030000000000000000000000000000000055029055030056496053495053493055493055492056494055493055494061542060542060541059540061542062540062543061543074639073641073640074638074639075639076639074640106593106594105593105591106592107592109593109593115177114178114177114176115176116176116177116177)
 (.leaf 120592119590120590119590120590121590121591121592137421136422137421136418138420140419138420139420184250184249184248183248183247185248185249184250048101046101047102047101047101048100048101048101051614050614050613050612051612051614051614052614055493053493055493054491054491056493056494055493060541059541059540058539060541061539061542060541073641000000073639072639074638074639073639074639105595104595105594104592105593106593106593108594116177115177115177115176116176117176117177117177119592119593119590120590120591121591121592120592137421137421136422137421138421138420139420139421184251184250184249184248184249185249184250185251046101046101046100046099047101047101047101048101051613050613050612050611050611051613051614051614055492055493054491054490054491056492056493056494059540058540058539057539059540060540060541059540000000000000000000073639073640073639074639074642106596105596104595105594106594106593108594108595117177116177116177116176117176118176117176118178121593118593119593119590120592121592120592121592137421135422136422136421137421138421137421137421183252184251184250184249184250184250185251184251047102047103046101046100047102047101048101048102051612050612050611050610050611051612051613051614054491052492052491053491053490055491054491054491058539057539056540057539058539059539059540058539000000000000000000000000073641074639074642000000104596104597103596103595104595105595106596105597118178117177117177117176118176118177119177119178118593118594119593119590119590120592119592121593135423134423135423135420136422136422137421136422))
 (.node 1 (.leaf 183252183253184251184250184251185251184251184252046101046103046101044100046099047101047102046101050611049611049610050609050609051611050611050611054490052491053491052489054490055490055491054491057539056539056538055538057539058539057539058539000000000000104597103596105596106596105597105598117176117177117176116176117176117176118177119177118594118595118594119593119593119592121593121594134423134424133421133421135420136422135422135423183254182254183252183251184251183252183252183253046100046101044100045098045099047100047101047102050610049610050609049608049609051610051611050611052491051491051490052490052489054490053490054490056540055542055539055538056538056540057539056541000000000000000000000000103596105596104596000000119177117176118176117176117176119174120177119178118595116594116594116592119593119593118593118594134424134425134424133421135423135422135423135424182255183254182254183252183253183252183253183255046099044100045098045097046099046099047100047101050609050609049608048608050609051609051610051611052492052491051491051490053491053490054490054491056539055539055538055537055538057539056540057539000000000000000000000000104597104596000000000000119178118178117176118176118177120177119178120178117595117596116594116594118594118593118594118596134425132425132422133421133421135423134423134424182255182256183254182254183254183253183255183255044100043100044100044099045097046099045099046099050609048609049608047608048608050609049609050609052491051491050491050490051490053491052491052492056538055538055537054537057536058538057539056540)
 (.leaf 117596116596117596116594118595118594118596118596120178119178119177118177120177000000121177120179133425132425132425132422134424134423134424135426182257181257182256181255183254182255182255183257045098044100044099044098045096046098046099045099049608049608047608048608050608050608050609049609051491050491049490049489050490051490051491052491055538054538055537054536054537057536055538056538116596115597116596116595116594118595117595117596000000119179119178119177119178121177120179120180133425132425132425132425134425134424135426134426181257181258181257182256182256182255183257183258045097044099044098045096045095047097046098046099049608047608047607046607048608050608048608049608050491049491049490048491049489050490050491051491055537055537054536053536055537056537057536055538116596115597115597116596117596117595117596117597120180000000120178119178121177000000000000000000132425132425131425132425132425134425133425133425181258180258181258181257182257183257183258183259045096044098045096044096045094045095047097046098047608046608046607046606046607048608047608049608049490047491047491048490048489050490049489049490055537054538053536053535053536055537054537055537115597115598115597114596116596117596116596116596121181000000000000120178120179000000000000000000132425131425130425131425132425132425132425132425180258179259180258180257181257182257181257181258045095045096044096044093045093046093045095047097047607046607046606045606047607048607048608047608048491046493047492047491047491048491049490049491054536053536053535053534054534055536055537054537))))
 (.node 2 (.node 1 (.leaf 115599115599114598113596115597115597115597115598000000000000000000000000120180000000000000000000131425130425129425130425131425132425131425132425180259000000179259180258181258181257181258183259045094044096044093044092045092045092046093045095046607045607045606044606045606047607046607047607046493046491047492046491047491047491047491048491053536051536052535052534053534054534053536054536116600114600115599114598115598115597115598116600000000000000000000121181000000000000000000000000130425129425128425128425130425131425130425131425000000000000179259180257180258181258180258180259045093044093044092044091044092046093045092046093046606045606044606044606045606047606047607046607047492046494046491047492047492047491048491048492053535052535052534051535052534053535054534053536115601114601114600115599115599115598116600116601129425127425127425127424128425130425129425130425000000000000000000178259179259179259000000000000045092044092044091043091044090046090046093045092045606043607043606044606044606045606045606046606046495045495045494046493046491046493047492046493053534052534051535052534053534054534053535054534000000115602115601116600116600117600117601117602127425127425127424127423127424128425128425129425044092043094043091042091043091044090044092045092043607042607043607044606044606044606044606045606046496046495045495045494046494047492046493047494052534050535051535051534052534053534052534053534000000000000115602115601116601117601117602117603127425126425127425127423127423127424127425127425042607041608042607041605044606044606043606043607)
 (.leaf 44091043091042091042090043090044090044090044092046497046497046495045495046495046493047494047495051535050535049535050535051535051535052534052535127424127425127423126422126423127423127424127425043091042093041091042089042090043090043091044091043607042607041608042607043607043606043607044607046498045496046497046495046496047494047495047496050535049535048535049535050535051535050535051535127423127423126422125422126422127423127423127424042093000000000000000000042089042090042091043091042607041609041608040607042607043607042607043607000000045497045496046497046497047495047496046498049535048535047535047534049535050535049535050535127423125423125422125421125422126422126423127423000000000000000000000000000000042089041091042093040609040610040609040608041608041608042607042608000000046498045497045496046498047496046498047500048535047535047534046533047534049535048535049535126422125422125421124421125421126421126422126423041609039611040610040609041609042607042608042609047535046535047534046533046533047534047535048535125422124422123421123421124421125421125422126422039611040610038609040608040609041609040609041609047534047534046533046532046533048534047534047535125421123421123421124421124420125421125421125422040610039612040610038609040610040609041609041610046533045533044532045533045533047531046533046533123421123421122421123421124421124420124421125421039613038613038612038611040610039611040610040611046532044532045533045530046532048532047531046533123421121422121422121420123421124421123421123421038614038614038613038612039612040610040611040612))
 (.leaf 45533044535044532043532045533045533046532046533121422120422000000121421121420123421122421123421039613037614038614038613039613040611040612040613044532043532042532043532044532045530045533044532121422120424119422121421000000121422121422122422038614037614036614037614038614038614039613038614043532042532041531041531043532044532043532044532120424118423118422118421121421000000120422121422037614036614035613036614037614038614037614038614042532041532041531040531041531043532042532043532118423117423117422117421118421121421119422120424036614035616035615035614036614037614036614037614041531040531040530040529040529042529041531041531117423000000116422000000117421118421118422118423035615033615033614033612035611036613036614035613040531038532039532040530040529040529040531041531000000000000000000000000000000117421117422117423035616034616033615033614035614036614035613036614040530039532040530039528040528040529040529040531000000000000000000000000000000000000116422000000035617034617034616033615035615035613036614036617040529040530039528039527040527040528040529040529000000000000034617034616035616036614036617000000040528039528039527000000040526040528040528040529000000000000000000034617035617036617000000000000040527039527000000000000039525041527040528040528040526000000000000000000039525041526041527040528000000000000000000000000039525039525039525039525000000000000000000000000000000000000000000000000000000000000000000000000000000000000000000000000000000000000000000000000000000000000000000000000000000000000000000000000000000000000000000000000))))))

end WG
