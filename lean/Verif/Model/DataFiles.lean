import Verif.Py

/-!
# The data files and the configuration file as shipped

Line by line, without the line ends (`charged_ff_2.csv` and `charged_new_data2.csv` have `\r\n`, which Python's text mode and
`csv.reader` treat like `\n`; the last lines of `charged_kaon.csv`, `charged_kaon_cropped_manually.csv` and `charged_new_data2.csv` have
no line end).
-/

namespace UA

/-- `data/charged_ff_2.csv:1-138`. -/
def chargedFF2 : List String := [
  "0.97515625 17.341021514577047 13.30942375865632", "0.98505625 4.736756756648572 0.9146427261859248",
  "0.99500625 7.127572727540498 0.46141613718316077", "1.00100025 9.212112041421042 0.900324392605528",
  "1.00300225 7.6473623899437095 0.8915800975108286", "1.00500625 9.715328051765274 0.8277947558327502",
  "1.00701225 8.850038262493287 0.8563017766402741", "1.00902025 10.200861410738845 0.8183244853314495",
  "1.01103025 11.832234642139314 0.7890063255822637", "1.01304225 13.620099794414614 0.7341403187009053",
  "1.01505625 13.372515998545499 0.7417630705955282", "1.01707225 14.962653431368901 0.7181250035667142",
  "1.01909025 16.48226305343729 0.7085038353863796", "1.02111025 18.138316228331643 0.6464985552659304",
  "1.02313225 21.973781411641045 0.6233718322178209", "1.02515625 24.015330997035253 0.6545453947153788",
  "1.02718225 27.393630923641382 0.6331988972394124", "1.02921025 32.72491600073846 0.639784777880036",
  "1.03124025 40.64079222595615 0.640604670811692", "1.03327225 49.63768030808198 0.657980248409373",
  "1.03530625 63.98388770866405 0.6201658818494291", "1.03734225 76.60486738379997 0.6680390474139797",
  "1.03938025 78.86174722472273 0.6397157520279473", "1.04142025 66.96916809978703 0.5879635636136407",
  "1.04346225 52.04004988795742 0.4879170454793656", "1.04550625 43.02182478465274 0.4516197848739724",
  "1.04755225 34.65901480432736 0.482480045319714", "1.04960025 30.431181119118637 0.4632839834196432",
  "1.05165025 26.15729486768013 0.4695726609355174", "1.05370225 23.365502309783423 0.43336384121668287",
  "1.05575625 19.84827240739877 0.3955102815155595", "1.05781225 18.59823585502672 0.4394948256969644",
  "1.05987025 16.952367653196365 0.43397778333687687", "1.06193025 16.246099839509856 0.38851170247289024",
  "1.06399225 14.314800831331665 0.41521556131998427", "1.06605625 13.61633305773257 0.4080810062778567",
  "1.06812225 12.271848036014523 0.40358520826619", "1.07019025 11.762708004416034 0.4033989724194582",
  "1.07226025 10.845613778724546 0.388488628616025", "1.07433225 10.341671951322281 0.38106894258699525",
  "1.07640625 10.530987837695822 0.3428680186238844", "1.07848225 9.282987894321652 0.3692849195842746",
  "1.08056025 8.631629477019132 0.35705963515934214", "1.08680625 8.106961786999136 0.15739646553570183",
  "1.09725625 6.890040603101923 0.1510126981292286", "1.10775625 5.803446704979059 0.14126963511070764",
  "1.11830625 5.068357818266345 0.13489848235630933", "1.12890625 4.664288976351452 0.1263619759228573",
  "1.13955625 4.284778253777582 0.12010489686344235", "1.15025625 3.8494194988092905 0.11457941439236144",
  "1.16100625 3.72662942959945 0.11215120145078122", "1.17180625 3.547912318781534 0.10690907117814695",
  "1.18265625 3.1951884964825656 0.10276087946998655", "1.19355625 3.117860334785171 0.10197340062612882",
  "1.20450625 2.9138866440495796 0.09972411649848932", "1.2321 2.6158538308037587 0.046558995188857755",
  "1.2769 2.23401158942905 0.042534654983039474", "1.3225 2.004219114469564 0.039957875384361574",
  "1.3689 1.7971455703303505 0.03781315333790963", "1.4161 1.6894124222111018 0.03627816182698132",
  "1.4641 1.5937596859426324 0.03764451303871249", "1.5129 1.441746173441957 0.0361534456763147",
  "1.5625 1.5045619112365503 0.034718110971330866", "1.6129 1.3649137326904568 0.033415737909255484",
  "1.6641 1.3160216036773111 0.0320900997476303", "1.7161 1.2559866667121853 0.03497038735068881",
  "1.7689 1.2207543828528271 0.03413499725079487", "1.8225 1.1505813977794006 0.0327788090936753",
  "1.8769 1.1101818061555258 0.03191314861180937", "1.9321 1.1364072061621098 0.03172318248079455",
  "1.9881 1.0446338432261355 0.030660712229713692", "2.0449 1.0286000859901263 0.029997672610105185",
  "2.1025 1.006327449084965 0.029679722126690063", "2.1609 0.958588147051582 0.029128968099995274",
  "2.2201 0.9188978641917137 0.028536574521724842", "2.2801 0.9355564799212025 0.02949024967038377",
  "2.3409 0.8827579270745693 0.02908850157174245", "2.4025 0.8610337173863382 0.028996306193648968",
  "2.4649 0.893623700602303 0.028820889954034305", "2.5281 0.8841941211156765 0.02851242114393193",
  "2.5921 0.8404786924921109 0.028387483193195236", "2.6569 0.8089772515044701 0.02803836137147434",
  "2.7225 0.7847110459693003 0.02753775016921495", "2.7889 0.6820659607476858 0.02702330344522666",
  "2.8561 0.5393512574454119 0.026348374635825192", "2.9241 0.45766822330549 0.028818381507571267",
  "2.9929 0.46480380949672545 0.028768816391233205", "3.0625 0.36883188894450925 0.02791254645553302",
  "3.1329 0.29045585206014396 0.02741036885938314", "3.2041 0.18625303299425078 0.029163004583944444",
  "3.2761 0.23537249777353325 0.02598949849801563", "3.3489 0.27909090125830444 0.026787224104956563",
  "3.4225 0.23052530883587555 0.027138649810180555", "3.4969 0.2923510879349168 0.026421120409376504",
  "3.5721 0.251082630443383 0.02707350956797794", "3.6481 0.29991505226962406 0.027832569275569242",
  "3.7249 0.2988440404040395 0.027811098798864602", "3.8025 0.30070640066759985 0.027876191254966015",
  "3.8809 0.3081089756678369 0.028140387012862127", "3.9601 0.2836484841363112 0.028396388161851607",
  "4.0 0.313771352249372 0.00543426318196037", "4.2025 0.2917929066458514 0.007437729397831469",
  "4.41 0.25528617840799445 0.0046671184981669", "4.515625 0.23980583293897684 0.0031430125345723024",
  "4.6225 0.22835310370971773 0.007643765331330469", "4.730625 0.2381791475304572 0.0047355342079961355",
  "4.84 0.2688431753151713 0.004807499514478347", "4.98360976 0.28381785268556053 0.005033246483508809",
  "5.33332836 0.24733801736372765 0.004199503630335757", "5.69490496 0.18783043239719277 0.0037298949728091974",
  "5.740816 0.18937063081255337 0.0031022335558556187", "6.25 0.18084098490168782 0.012846882174523911",
  "6.99285136 0.15110253028137813 0.0038985205299219197", "7.00343296 0.15132255913679243 0.003396863736892961",
  "7.29 0.12294469264192778 0.014394351066892373", "7.84 0.1292295707468891 0.015280289400080957",
  "8.41 0.11901430420555219 0.003327702584694716", "8.7025 0.11008150647045507 0.005134420633280806",
  "8.886361 0.11679493454574415 0.004719228012887694", "9.0 0.10959551949067223 0.005262100638828959",
  "9.1204 0.11109320476233996 0.005247977821515105", "9.4864 0.11404208212719509 0.005203292324367133",
  "9.61 0.10181788106979998 0.00401219247770852", "10.89 0.09002534744833061 0.0029957747936417024",
  "12.25 0.06960078127060174 0.0029624941335140583", "13.69 0.057687585945914686 0.0029573030285905337",
  "15.21 0.05633069525768936 0.002507247383942782", "16.81 0.045054905310963914 0.0023465822441234682",
  "18.49 0.039656934218870586 0.0023130533269595664", "20.25 0.028458098406552938 0.0022333846464762048",
  "22.09 0.026888886118328487 0.0021898306911489348", "24.01 0.024764473456144586 0.0020757037221199107",
  "26.01 0.021356624024259547 0.0023173564531830185", "28.6225 0.021431750296738217 0.0015610581118497802",
  "33.0625 0.015010590475333655 0.0014816433134579763", "39.0625 0.009283048168379087 0.002069161647244948",
  "45.5625 0.009783563069954659 0.0019197140851711304", "52.5625 0.006834175533632266 0.002488135335538826"]

/-- `data/charged_kaon.csv:1-257`. -/
def chargedKaon : List String := [
  "0.97515625 0.03404300 0.00601017", "0.98505625 0.52023100 0.04201780", "0.99500625 3.19217100 0.18133795",
  "1.00100025 7.76483700 2.30041250", "1.00300225 5.94779000 1.92163599", "1.00500625 10.59019600 3.25047382",
  "1.00701225 9.63146100 3.46848510", "1.00902025 13.94397800 4.99331257", "1.01103025 20.33948600 7.33220873",
  "1.01304225 29.08580000 9.77752106", "1.01505625 30.13582700 11.11881320", "1.01707225 40.40223900 14.93412043",
  "1.01909025 52.32348900 20.05554588", "1.02111025 67.42238500 22.86936198", "1.02313225 104.99093100 34.92203160",
  "1.02515625 132.71958500 51.43558464", "1.02718225 182.32391500 69.33331978", "1.02921025 274.11727700 111.00203900",
  "1.03124025 444.48373400 186.13421243", "1.03327225 695.80222400 315.22035133", "1.03530625 1211.07223200 475.20253507",
  "1.03734225 1815.48296500 831.85676254", "1.03938025 2009.06012900 853.27745166", "1.04142025 1510.64307700 585.41439891",
  "1.04346225 949.83482000 270.54601061", "1.04550625 675.07793200 177.32128744", "1.04755225 455.07878000 149.83113634",
  "1.04960025 363.97603900 115.98006796", "1.05165025 278.69647100 96.11952679", "1.05370225 230.22938500 70.20686606",
  "1.05575625 171.82932400 45.38107430", "1.05781225 155.89575300 53.03857919", "1.05987025 133.72340400 45.95893068",
  "1.06193025 126.68812000 35.57154864", "1.06399225 101.37971900 33.85745512", "1.06605625 94.47374500 31.43213825",
  "1.06812225 78.97747600 26.54250078", "1.07019025 74.62534300 25.80461629", "1.07226025 65.20442900 21.52035016",
  "1.07433225 60.89312100 19.87710422", "1.07640625 64.81491100 17.51767403", "1.07848225 51.66602000 16.71021975",
  "1.08056025 45.79947800 14.21122116", "1.08680625 43.40466200 2.54083281", "1.09620900 36.24300000 0.75650843",
  "1.09725625 34.99577600 2.16673674", "1.10775625 27.42988300 1.66717058", "1.11830625 22.91198400 1.41284669",
  "1.12890625 21.09121600 1.24742102", "1.13955625 19.21957300 1.11629538", "1.15025625 16.65471600 0.95425844",
  "1.15562500 18.48300000 0.38810437", "1.16100625 16.67369900 0.97753736", "1.17180625 16.07066400 0.91265263",
  "1.18265625 13.80417900 0.77392187", "1.19355625 13.87000800 0.80733003", "1.20340900 14.18400000 0.30560105",
  "1.20450625 12.74152600 0.74901952", "1.23210000 11.50355200 0.23030746", "1.26337600 11.30700000 0.24740655",
  "1.27690000 9.76316100 0.19573176", "1.32250000 8.88818700 0.17927034", "1.32480100 9.41500000 0.22748187",
  "1.36890000 7.91164500 0.16022790", "1.37827600 9.14800000 0.20833147", "1.41610000 7.61148500 0.15464118",
  "1.43041600 7.73700000 0.18333030", "1.46410000 7.27651500 0.18644768", "1.49572900 7.26900000 0.20357063",
  "1.51290000 6.32698100 0.16258027", "1.55002500 6.62400000 0.20840585", "1.56250000 7.25538600 0.18320289",
  "1.61290000 6.24004600 0.15760066", "1.62052900 6.51800000 0.19188799", "1.63072900 6.35800000 0.17660408",
  "1.66410000 6.02362500 0.15067220", "1.67702500 5.96400000 0.20103980", "1.71610000 5.66600700 0.20109765",
  "1.75032900 5.71800000 0.17217723", "1.76890000 5.50158300 0.19495915", "1.80633600 5.16000000 0.16329421",
  "1.82250000 5.00275400 0.17667569", "1.84144900 5.33900000 0.15101324", "1.87690000 4.75062300 0.16741646",
  "1.88787600 5.30800000 0.15035957", "1.93210000 5.06118300 0.17795314", "1.94323600 5.00100000 0.14713939",
  "1.98810000 4.33638900 0.15245632", "2.02492900 4.57900000 0.13641847", "2.04490000 4.25246100 0.14905311",
  "2.05922500 4.11400000 0.12067311", "2.08224900 4.25400000 0.14838464", "2.10250000 4.10792000 0.14397553",
  "2.16090000 3.75451900 0.13156464", "2.16384100 4.09300000 0.12432618", "2.22010000 3.46905200 0.12140972",
  "2.23203600 3.64600000 0.12042010", "2.28010000 3.61009900 0.13880134", "2.29522500 3.57400000 0.11151681",
  "2.31648400 3.67900000 0.13370116", "2.34090000 3.22217900 0.12403364", "2.38084900 3.38200000 0.13003461",
  "2.40250000 3.06929400 0.11825634", "2.46490000 3.30625800 0.12698479", "2.47118400 3.51800000 0.13017296",
  "2.52810000 3.23367500 0.12404061", "2.54083600 3.50700000 0.15910060", "2.54402500 3.30200000 0.10547512",
  "2.59210000 2.91618300 0.11206815", "2.63412900 3.02200000 0.11069327", "2.65690000 2.69412800 0.10350060",
  "2.69944900 2.81500000 0.11294689", "2.72250000 2.52584700 0.09687547", "2.78556100 2.15500000 0.09613532",
  "2.78890000 1.90007200 0.07303633", "2.80227600 1.77000000 0.06931811", "2.85610000 1.18224000 0.04554674",
  "2.86624900 1.57000000 0.08420214", "2.92410000 0.84654200 0.06010663", "2.94465600 1.11500000 0.07905694",
  "2.96872900 0.96800000 0.07184010", "2.99290000 0.86782700 0.06159194", "3.03456400 0.63300000 0.05263079",
  "3.06250000 0.54285000 0.03858108", "3.09056400 0.50300000 0.04049691", "3.13290000 0.33428200 0.02378164",
  "3.14707600 0.31000000 0.03710795", "3.20410000 0.13642900 0.00975970", "3.21484900 0.17000000 0.03590265",
  "3.23280400 0.18700000 0.02968164", "3.27610000 0.21616800 0.01535532", "3.33427600 0.21500000 0.03605551",
  "3.34890000 0.30143800 0.02141819", "3.38560000 0.29300000 0.04332436", "3.41880100 0.17100000 0.04294182",
  "3.42250000 0.20390600 0.01450761", "3.49690000 0.32505700 0.02307061", "3.50064100 0.29100000 0.03981206",
  "3.51187600 0.27600000 0.03667424", "3.57210000 0.23758700 0.01688977", "3.58344900 0.34500000 0.04308132",
  "3.61380100 0.34300000 0.05069517", "3.62140900 0.28700000 0.03712142", "3.64810000 0.33582800 0.02387512",
  "3.70947600 0.36700000 0.04681880", "3.71332900 0.31600000 0.04427189", "3.72490000 0.33024900 0.02347389",
  "3.78302500 0.26300000 0.03716181", "3.80250000 0.33111500 0.02353258", "3.81420900 0.35700000 0.06281720",
  "3.86908900 0.33100000 0.04365776", "3.88090000 0.34416000 0.02446143", "3.91248400 0.33200000 0.05756735",
  "3.95612100 0.34600000 0.04838388", "3.96010000 0.28873200 0.02053666", "4.00000000 0.35150000 0.01217539",
  "4.02002500 0.36700000 0.05059644", "4.04010000 0.37395700 0.02653675", "4.12090000 0.32172900 0.02281719",
  "4.20250000 0.19298700 0.01372125", "4.20250000 0.29610000 0.01509503", "4.28490000 0.29156400 0.02067063",
  "4.36810000 0.15409600 0.01097094", "4.41000000 0.22060000 0.00806598", "4.45210000 0.19066900 0.01353837",
  "4.51562500 0.19200000 0.00503289", "4.53690000 0.22421100 0.01590673", "4.62250000 0.17170000 0.01149478",
  "4.62250000 0.14126700 0.01001955", "4.70890000 0.09976100 0.00709704", "4.73062500 0.18420000 0.00732462",
  "4.79610000 0.22012900 0.01562045", "4.84000000 0.23140000 0.00827587", "4.88410000 0.23219200 0.01645854",
  "4.97290000 0.25413100 0.01802387", "4.98360976 0.25320000 0.00898053", "5.06250000 0.31236100 0.02210093",
  "5.15290000 0.13028400 0.00922874", "5.24410000 0.26799300 0.01895831", "5.33332836 0.18400000 0.00624820",
  "5.33610000 0.21410900 0.01254501", "5.42890000 0.15052700 0.00883073", "5.52250000 0.10188300 0.00598180",
  "5.61690000 0.15979100 0.00935455", "5.69490496 0.10150000 0.00403113", "5.71210000 0.07784500 0.00456116",
  "5.74081600 0.10260000 0.00336155", "5.80810000 0.11293800 0.00661013", "5.90490000 0.11988800 0.00702552",
  "6.00250000 0.05867000 0.00344283", "6.10090000 0.05323800 0.00312533", "6.20010000 0.10564000 0.00618018",
  "6.25000000 0.08810000 0.01251719", "6.30010000 0.07905700 0.00464013", "6.40090000 0.09094500 0.00533096",
  "6.50250000 0.10363700 0.00607289", "6.60490000 0.05557100 0.00326492", "6.70810000 0.08155400 0.00477424",
  "6.86440000 0.06593700 0.00383693", "6.99285136 0.05660000 0.00292062", "7.00343296 0.05670000 0.00254558",
  "7.02250000 0.06668584 0.00856918", "7.07560000 0.04467100 0.00260048", "7.29000000 0.04615300 0.00268534",
  "7.29000000 0.03630000 0.00850000", "7.50760000 0.03700000 0.00215277", "7.56250000 0.05096544 0.00525671",
  "7.72840000 0.03737900 0.00217503", "7.84000000 0.03790000 0.00896270", "7.95240000 0.03907700 0.00227299",
  "8.12250000 0.04056592 0.00362945", "8.17960000 0.02904000 0.00168939", "8.41000000 0.03853200 0.00224190",
  "8.41000000 0.03040000 0.00170000", "8.64360000 0.04466900 0.00259771", "8.70250000 0.03129005 0.00287136",
  "8.70250000 0.02530000 0.00236008", "8.88040000 0.02109700 0.00122734", "8.88636100 0.02800000 0.00226274",
  "9.00000000 0.02440000 0.00234307", "9.12040000 0.02358100 0.00207844", "9.12040000 0.02480000 0.00234307",
  "9.36360000 0.03378000 0.00297726", "9.48640000 0.02530000 0.00230868", "9.61000000 0.01995149 0.00157240",
  "9.61000000 0.02013400 0.00177445", "9.85960000 0.03313000 0.00292002", "10.11240000 0.01784200 0.00157275",
  "10.36840000 0.02287200 0.00201584", "10.62760000 0.02439700 0.00215029", "10.89000000 0.01403912 0.00093436",
  "10.89000000 0.01005500 0.00088635", "11.15560000 0.03009800 0.00265232", "11.42440000 0.01214800 0.00107078",
  "11.83360000 0.01232100 0.00108555", "12.25000000 0.00758233 0.00064547", "12.39040000 0.00768400 0.00067700",
  "12.96000000 0.00822900 0.00072503", "13.54240000 0.01102600 0.00097145", "13.69000000 0.00472465 0.00048441",
  "14.13760000 0.00535600 0.00047190", "15.21000000 0.00410149 0.00036511", "15.60250000 0.00249600 0.00021990",
  "16.81000000 0.00239734 0.00024972", "18.06250000 0.00389500 0.00098076", "18.49000000 0.00170274 0.00019863",
  "20.25000000 0.00080645 0.00012658", "20.70250000 0.00157800 0.00039734", "22.09000000 0.00066417 0.00010818",
  "23.52250000 0.00115700 0.00029133", "24.01000000 0.00052119 0.00008737", "26.01000000 0.00035956 0.00007803",
  "28.62250000 0.00033080 0.00004819", "33.06250000 0.00014148 0.00002793", "39.06250000 0.00004612 0.00002056",
  "45.56250000 0.00004416 0.00001733", "52.56250000 0.00001876 0.00001366"]

/-- `data/charged_kaon_cropped_manually.csv:1-251`. -/
def chargedKaonCropped : List String := [
  "0.97515625 0.03404300 0.00601017", "0.98505625 0.52023100 0.04201780", "0.99500625 3.19217100 0.18133795",
  "1.00100025 7.76483700 2.30041250", "1.00300225 5.94779000 1.92163599", "1.00500625 10.59019600 3.25047382",
  "1.00701225 9.63146100 3.46848510", "1.00902025 13.94397800 4.99331257", "1.01103025 20.33948600 7.33220873",
  "1.01304225 29.08580000 9.77752106", "1.01505625 30.13582700 11.11881320", "1.01707225 40.40223900 14.93412043",
  "1.01909025 52.32348900 20.05554588", "1.02111025 67.42238500 22.86936198", "1.02313225 104.99093100 34.92203160",
  "1.02515625 132.71958500 51.43558464", "1.02718225 182.32391500 69.33331978", "1.02921025 274.11727700 111.00203900",
  "1.03124025 444.48373400 186.13421243", "1.03327225 695.80222400 315.22035133", "1.03530625 1211.07223200 475.20253507",
  "1.03734225 1815.48296500 831.85676254", "1.03938025 2009.06012900 853.27745166", "1.04142025 1510.64307700 585.41439891",
  "1.04346225 949.83482000 270.54601061", "1.04550625 675.07793200 177.32128744", "1.04755225 455.07878000 149.83113634",
  "1.04960025 363.97603900 115.98006796", "1.05165025 278.69647100 96.11952679", "1.05370225 230.22938500 70.20686606",
  "1.05575625 171.82932400 45.38107430", "1.05781225 155.89575300 53.03857919", "1.05987025 133.72340400 45.95893068",
  "1.06193025 126.68812000 35.57154864", "1.06399225 101.37971900 33.85745512", "1.06605625 94.47374500 31.43213825",
  "1.06812225 78.97747600 26.54250078", "1.07019025 74.62534300 25.80461629", "1.07226025 65.20442900 21.52035016",
  "1.07433225 60.89312100 19.87710422", "1.07640625 64.81491100 17.51767403", "1.07848225 51.66602000 16.71021975",
  "1.08056025 45.79947800 14.21122116", "1.08680625 43.40466200 2.54083281", "1.09620900 36.24300000 0.75650843",
  "1.09725625 34.99577600 2.16673674", "1.10775625 27.42988300 1.66717058", "1.11830625 22.91198400 1.41284669",
  "1.12890625 21.09121600 1.24742102", "1.13955625 19.21957300 1.11629538", "1.15025625 16.65471600 0.95425844",
  "1.15562500 18.48300000 0.38810437", "1.16100625 16.67369900 0.97753736", "1.17180625 16.07066400 0.91265263",
  "1.18265625 13.80417900 0.77392187", "1.19355625 13.87000800 0.80733003", "1.20340900 14.18400000 0.30560105",
  "1.20450625 12.74152600 0.74901952", "1.23210000 11.50355200 0.23030746", "1.26337600 11.30700000 0.24740655",
  "1.27690000 9.76316100 0.19573176", "1.32250000 8.88818700 0.17927034", "1.32480100 9.41500000 0.22748187",
  "1.36890000 7.91164500 0.16022790", "1.37827600 9.14800000 0.20833147", "1.41610000 7.61148500 0.15464118",
  "1.43041600 7.73700000 0.18333030", "1.46410000 7.27651500 0.18644768", "1.49572900 7.26900000 0.20357063",
  "1.51290000 6.32698100 0.16258027", "1.55002500 6.62400000 0.20840585", "1.56250000 7.25538600 0.18320289",
  "1.61290000 6.24004600 0.15760066", "1.62052900 6.51800000 0.19188799", "1.63072900 6.35800000 0.17660408",
  "1.66410000 6.02362500 0.15067220", "1.67702500 5.96400000 0.20103980", "1.71610000 5.66600700 0.20109765",
  "1.75032900 5.71800000 0.17217723", "1.76890000 5.50158300 0.19495915", "1.80633600 5.16000000 0.16329421",
  "1.82250000 5.00275400 0.17667569", "1.84144900 5.33900000 0.15101324", "1.87690000 4.75062300 0.16741646",
  "1.88787600 5.30800000 0.15035957", "1.93210000 5.06118300 0.17795314", "1.94323600 5.00100000 0.14713939",
  "1.98810000 4.33638900 0.15245632", "2.02492900 4.57900000 0.13641847", "2.04490000 4.25246100 0.14905311",
  "2.05922500 4.11400000 0.12067311", "2.08224900 4.25400000 0.14838464", "2.10250000 4.10792000 0.14397553",
  "2.16090000 3.75451900 0.13156464", "2.16384100 4.09300000 0.12432618", "2.22010000 3.46905200 0.12140972",
  "2.23203600 3.64600000 0.12042010", "2.28010000 3.61009900 0.13880134", "2.29522500 3.57400000 0.11151681",
  "2.31648400 3.67900000 0.13370116", "2.34090000 3.22217900 0.12403364", "2.38084900 3.38200000 0.13003461",
  "2.40250000 3.06929400 0.11825634", "2.46490000 3.30625800 0.12698479", "2.52810000 3.23367500 0.12404061",
  "2.54083600 3.50700000 0.15910060", "2.54402500 3.30200000 0.10547512", "2.59210000 2.91618300 0.11206815",
  "2.63412900 3.02200000 0.11069327", "2.65690000 2.69412800 0.10350060", "2.69944900 2.81500000 0.11294689",
  "2.72250000 2.52584700 0.09687547", "2.78556100 2.15500000 0.09613532", "2.78890000 1.90007200 0.07303633",
  "2.80227600 1.77000000 0.06931811", "2.86624900 1.57000000 0.08420214", "2.92410000 0.84654200 0.06010663",
  "2.94465600 1.11500000 0.07905694", "2.96872900 0.96800000 0.07184010", "2.99290000 0.86782700 0.06159194",
  "3.03456400 0.63300000 0.05263079", "3.06250000 0.54285000 0.03858108", "3.09056400 0.50300000 0.04049691",
  "3.13290000 0.33428200 0.02378164", "3.14707600 0.31000000 0.03710795", "3.21484900 0.17000000 0.03590265",
  "3.23280400 0.18700000 0.02968164", "3.27610000 0.21616800 0.01535532", "3.33427600 0.21500000 0.03605551",
  "3.34890000 0.30143800 0.02141819", "3.38560000 0.29300000 0.04332436", "3.41880100 0.17100000 0.04294182",
  "3.42250000 0.20390600 0.01450761", "3.49690000 0.32505700 0.02307061", "3.50064100 0.29100000 0.03981206",
  "3.51187600 0.27600000 0.03667424", "3.57210000 0.23758700 0.01688977", "3.58344900 0.34500000 0.04308132",
  "3.61380100 0.34300000 0.05069517", "3.62140900 0.28700000 0.03712142", "3.64810000 0.33582800 0.02387512",
  "3.70947600 0.36700000 0.04681880", "3.71332900 0.31600000 0.04427189", "3.72490000 0.33024900 0.02347389",
  "3.78302500 0.26300000 0.03716181", "3.80250000 0.33111500 0.02353258", "3.81420900 0.35700000 0.06281720",
  "3.86908900 0.33100000 0.04365776", "3.88090000 0.34416000 0.02446143", "3.91248400 0.33200000 0.05756735",
  "3.95612100 0.34600000 0.04838388", "3.96010000 0.28873200 0.02053666", "4.00000000 0.35150000 0.01217539",
  "4.02002500 0.36700000 0.05059644", "4.04010000 0.37395700 0.02653675", "4.12090000 0.32172900 0.02281719",
  "4.20250000 0.29610000 0.01509503", "4.28490000 0.29156400 0.02067063", "4.36810000 0.15409600 0.01097094",
  "4.41000000 0.22060000 0.00806598", "4.45210000 0.19066900 0.01353837", "4.51562500 0.19200000 0.00503289",
  "4.53690000 0.22421100 0.01590673", "4.62250000 0.17170000 0.01149478", "4.62250000 0.14126700 0.01001955",
  "4.73062500 0.18420000 0.00732462", "4.79610000 0.22012900 0.01562045", "4.84000000 0.23140000 0.00827587",
  "4.88410000 0.23219200 0.01645854", "4.97290000 0.25413100 0.01802387", "4.98360976 0.25320000 0.00898053",
  "5.06250000 0.31236100 0.02210093", "5.15290000 0.13028400 0.00922874", "5.24410000 0.26799300 0.01895831",
  "5.33332836 0.18400000 0.00624820", "5.33610000 0.21410900 0.01254501", "5.42890000 0.15052700 0.00883073",
  "5.52250000 0.10188300 0.00598180", "5.61690000 0.15979100 0.00935455", "5.69490496 0.10150000 0.00403113",
  "5.71210000 0.07784500 0.00456116", "5.74081600 0.10260000 0.00336155", "5.80810000 0.11293800 0.00661013",
  "5.90490000 0.11988800 0.00702552", "6.00250000 0.05867000 0.00344283", "6.10090000 0.05323800 0.00312533",
  "6.20010000 0.10564000 0.00618018", "6.25000000 0.08810000 0.01251719", "6.30010000 0.07905700 0.00464013",
  "6.40090000 0.09094500 0.00533096", "6.50250000 0.10363700 0.00607289", "6.60490000 0.05557100 0.00326492",
  "6.70810000 0.08155400 0.00477424", "6.86440000 0.06593700 0.00383693", "6.99285136 0.05660000 0.00292062",
  "7.00343296 0.05670000 0.00254558", "7.02250000 0.06668584 0.00856918", "7.07560000 0.04467100 0.00260048",
  "7.29000000 0.04615300 0.00268534", "7.29000000 0.03630000 0.00850000", "7.50760000 0.03700000 0.00215277",
  "7.56250000 0.05096544 0.00525671", "7.72840000 0.03737900 0.00217503", "7.84000000 0.03790000 0.00896270",
  "7.95240000 0.03907700 0.00227299", "8.12250000 0.04056592 0.00362945", "8.17960000 0.02904000 0.00168939",
  "8.41000000 0.03853200 0.00224190", "8.41000000 0.03040000 0.00170000", "8.70250000 0.03129005 0.00287136",
  "8.70250000 0.02530000 0.00236008", "8.88040000 0.02109700 0.00122734", "8.88636100 0.02800000 0.00226274",
  "9.00000000 0.02440000 0.00234307", "9.12040000 0.02358100 0.00207844", "9.12040000 0.02480000 0.00234307",
  "9.36360000 0.03378000 0.00297726", "9.48640000 0.02530000 0.00230868", "9.61000000 0.01995149 0.00157240",
  "9.61000000 0.02013400 0.00177445", "9.85960000 0.03313000 0.00292002", "10.11240000 0.01784200 0.00157275",
  "10.36840000 0.02287200 0.00201584", "10.62760000 0.02439700 0.00215029", "10.89000000 0.01403912 0.00093436",
  "10.89000000 0.01005500 0.00088635", "11.15560000 0.03009800 0.00265232", "11.42440000 0.01214800 0.00107078",
  "11.83360000 0.01232100 0.00108555", "12.25000000 0.00758233 0.00064547", "12.39040000 0.00768400 0.00067700",
  "12.96000000 0.00822900 0.00072503", "13.54240000 0.01102600 0.00097145", "13.69000000 0.00472465 0.00048441",
  "14.13760000 0.00535600 0.00047190", "15.21000000 0.00410149 0.00036511", "15.60250000 0.00249600 0.00021990",
  "16.81000000 0.00239734 0.00024972", "18.06250000 0.00389500 0.00098076", "18.49000000 0.00170274 0.00019863",
  "20.25000000 0.00080645 0.00012658", "20.70250000 0.00157800 0.00039734", "22.09000000 0.00066417 0.00010818",
  "23.52250000 0.00115700 0.00029133", "24.01000000 0.00052119 0.00008737", "26.01000000 0.00035956 0.00007803",
  "28.62250000 0.00033080 0.00004819", "33.06250000 0.00014148 0.00002793", "39.06250000 0.00004612 0.00002056",
  "45.56250000 0.00004416 0.00001733", "52.56250000 0.00001876 0.00001366"]

/-- `data/charged_new_data2.csv:1-138`. -/
def chargedNewData2 : List String := [
  "0.97515625 0.03404300 0.05225675", "0.98505625 0.52023100 0.20090772", "0.99500625 3.19217100 0.41330177",
  "1.00100025 7.76483700 1.51775665", "1.00300225 5.94779000 1.38686541", "1.00500625 10.59019600 1.80467580",
  "1.00701225 9.63146100 1.86381955", "1.00902025 13.94397800 2.23720295", "1.01103025 20.33948600 2.71258703",
  "1.01304225 29.08580000 3.13552159", "1.01505625 30.13582700 3.34322181", "1.01707225 40.40223900 3.87817016",
  "1.01909025 52.32348900 4.49833770", "1.02111025 67.42238500 4.80623162", "1.02313225 104.99093100 5.95695277",
  "1.02515625 132.71958500 7.23462801", "1.02718225 182.32391500 8.42876961", "1.02921025 274.11727700 10.71819779",
  "1.03124025 444.48373400 14.01244122", "1.03327225 695.80222400 18.44663640", "1.03530625 1211.07223200 23.47671283",
  "1.03734225 1815.48296500 31.66413707", "1.03938025 2009.06012900 32.59444424", "1.04142025 1510.64307700 26.52573153",
  "1.04346225 949.83482000 17.81092063", "1.04550625 675.07793200 14.17320404", "1.04755225 455.07878000 12.67009069",
  "1.04960025 363.97603900 11.08233483", "1.05165025 278.69647100 10.00625211", "1.05370225 230.22938500 8.54020507",
  "1.05575625 171.82932400 6.84797779", "1.05781225 155.89575300 7.36794364", "1.05987025 133.72340400 6.84659366",
  "1.06193025 126.68812000 6.05927794", "1.06399225 101.37971900 5.88124661", "1.06605625 94.47374500 5.66274940",
  "1.06812225 78.97747600 5.19467663", "1.07019025 74.62534300 5.11851296", "1.07226025 65.20442900 4.67123018",
  "1.07433225 60.89312100 4.48756784", "1.07640625 64.81491100 4.22048918", "1.07848225 51.66602000 4.11063383",
  "1.08056025 45.79947800 3.78912115", "1.08680625 43.40466200 1.68540091", "1.09725625 34.99577600 1.53404221",
  "1.10775625 27.42988300 1.33541661", "1.11830625 22.91198400 1.21964233", "1.12890625 21.09121600 1.14277985",
  "1.13955625 19.21957300 1.07747225", "1.15025625 16.65471600 0.99146773", "1.16100625 16.67369900 1.00357463",
  "1.17180625 16.07066400 0.96851309", "1.18265625 13.80417900 0.88791605", "1.19355625 13.87000800 0.90727084",
  "1.20450625 12.74152600 0.87212550", "1.23210000 11.50355200 0.40949828", "1.27690000 9.76316100 0.37177308",
  "1.32250000 8.88818700 0.35440543", "1.36890000 7.91164500 0.33293268", "1.41610000 7.61148500 0.32689553",
  "1.46410000 7.27651500 0.34374174", "1.51290000 6.32698100 0.31731267", "1.56250000 7.25538600 0.33483939",
  "1.61290000 6.24004600 0.30553688", "1.66410000 6.02362500 0.29376224", "1.71610000 5.66600700 0.31551682",
  "1.76890000 5.50158300 0.30767290", "1.82250000 5.00275400 0.28504601", "1.87690000 4.75062300 0.27312164",
  "1.93210000 5.06118300 0.28256919", "1.98810000 4.33638900 0.25455192", "2.04490000 4.25246100 0.24803407",
  "2.10250000 4.10792000 0.24231064", "2.16090000 3.75451900 0.22817988", "2.22010000 3.46905200 0.21546434",
  "2.28010000 3.61009900 0.22759229", "2.34090000 3.22217900 0.21235348", "2.40250000 3.06929400 0.20672405",
  "2.46490000 3.30625800 0.21326493", "2.52810000 3.23367500 0.20855127", "2.59210000 2.91618300 0.19699035",
  "2.65690000 2.69412800 0.18675169", "2.72250000 2.52584700 0.17727836", "2.78890000 1.90007200 0.15056087",
  "2.85610000 1.18224000 0.11550952", "2.92410000 0.84654200 0.10660985", "2.99290000 0.86782700 0.10742750",
  "3.06250000 0.54285000 0.08216386", "3.13290000 0.33428200 0.06309250", "3.20410000 0.13642900 0.04272338",
  "3.27610000 0.21616800 0.04773793", "3.34890000 0.30143800 0.05786421", "3.42250000 0.20390600 0.04800977",
  "3.49690000 0.32505700 0.05875381", "3.57210000 0.23758700 0.05123663", "3.64810000 0.33582800 0.06233069",
  "3.72490000 0.33024900 0.06146743", "3.80250000 0.33111500 0.06139028", "3.88090000 0.34416000 0.06286604",
  "3.96010000 0.28873200 0.05781061", "4.0 0.3515 0.012175385004179539", "4.2025 0.2961 0.015095032295427527",
  "4.41 0.2206 0.008065977932030313", "4.515625 0.192 0.005032891812864647", "4.6225 0.1717 0.011494781424629176",
  "4.730625 0.1842 0.007324616030891995", "4.84 0.2314 0.008275868534480233", "4.98360976 0.2532 0.008980534505250787",
  "5.33332836 0.184 0.0062481997407253225", "5.69490496 0.1015 0.004031128874149275", "5.740816 0.1026 0.003361547262794322",
  "6.25 0.0881 0.012517188182655082", "6.99285136 0.0566 0.0029206163733020464", "7.00343296 0.0567 0.002545584412271571",
  "7.29 0.0363 0.008499999999999999", "7.84 0.0379 0.008962700485902673", "8.41 0.0304 0.0017000000000000001",
  "8.7025 0.0253 0.002360084744241189", "8.886361 0.028 0.002262741699796952", "9.0 0.0244 0.002343074902771996",
  "9.1204 0.0248 0.002343074902771996", "9.4864 0.0253 0.002308679276123039", "9.61000000 0.01995149 0.00157240",
  "10.89000000 0.01403912 0.00093436", "12.25000000 0.00758233 0.00064547", "13.69000000 0.00472465 0.00048441",
  "15.21000000 0.00410149 0.00036511", "16.81000000 0.00239734 0.00024972", "18.49000000 0.00170274 0.00019863",
  "20.25000000 0.00080645 0.00012658", "22.09000000 0.00066417 0.00010818", "24.01000000 0.00052119 0.00008737",
  "26.01000000 0.00035956 0.00007803", "28.62250000 0.00033080 0.00004819", "33.06250000 0.00014148 0.00002793",
  "39.06250000 0.00004612 0.00002056", "45.56250000 0.00004416 0.00001733", "52.56250000 0.00001876 0.00001366"]

/-- `data/neutral_kaon.csv:1-141`. -/
def neutralKaon : List String := [
  "1.0081 6.8700 0.4378", "1.0084 12.3200 1.7724", "1.0085 18.4000 9.7950", "1.0093 13.5100 4.5758", "1.0206 42.8900 5.2905",
  "1.0210 42.1600 0.8926", "1.0218 53.9700 7.7247", "1.0227 54.1400 3.6771", "1.0227 57.8700 7.0886", "1.0261 96.7400 2.0080",
  "1.0304 219.5300 6.3887", "1.0321 370.7800 29.3840", "1.0322 378.5000 31.2203", "1.0325 366.3300 7.3871",
  "1.0330 433.5000 38.9829", "1.0341 611.5900 47.8922", "1.0342 656.4000 51.0251", "1.0345 658.3100 19.7556",
  "1.0346 628.1500 11.6852", "1.0346 624.7600 14.9759", "1.0347 655.4400 51.2167", "1.0361 1006.1400 55.8535",
  "1.0362 1078.3800 58.4399", "1.0364 996.6200 18.4427", "1.0364 999.5300 57.7083", "1.0366 1069.6600 41.4785",
  "1.0379 1344.7500 32.9288", "1.0383 1277.4700 38.8722", "1.0384 1322.3600 33.5836", "1.0384 1342.1000 33.8313",
  "1.0386 1413.6500 26.1481", "1.0388 1291.7300 43.6378", "1.0388 1433.0500 29.8543", "1.0392 1434.8400 31.7112",
  "1.0397 1219.3700 46.7653", "1.0402 1341.9100 24.6151", "1.0403 1127.9100 48.6849", "1.0404 1189.9200 32.7139",
  "1.0404 1150.4100 49.1945", "1.0407 1193.6700 42.4099", "1.0418 866.3900 45.3296", "1.0422 770.2400 41.4714",
  "1.0424 811.4700 42.7944", "1.0429 833.2000 15.7747", "1.0431 807.5400 17.8498", "1.0437 558.3900 32.5643",
  "1.0440 522.5900 33.0851", "1.0442 536.8700 30.5931", "1.0442 535.0400 35.9013", "1.0446 582.9300 11.2400",
  "1.0457 371.9800 24.5968", "1.0459 364.3800 27.5650", "1.0460 443.7100 9.1090", "1.0471 377.7700 8.6275",
  "1.0485 258.0700 13.8815", "1.0513 199.2600 6.1290", "1.0562 115.4600 9.6321", "1.0567 115.9300 2.6916",
  "1.0575 93.5800 9.0509", "1.0576 93.7500 7.8632", "1.0590 96.9600 3.4707", "1.0684 61.6900 8.0387", "1.0690 50.1200 1.5497",
  "1.0693 50.3100 7.2903", "1.0805 35.6100 5.8812", "1.0816 27.3000 1.9698", "1.0817 31.2700 1.1562", "1.1022 16.9300 0.5855",
  "1.1025 15.5000 1.3000", "1.1025 16.6500 2.0975", "1.1043 17.4700 0.9912", "1.1235 12.0900 0.7426", "1.1236 10.3000 0.5831",
  "1.1236 11.1000 1.1459", "1.1449 7.2000 0.8246", "1.1449 6.8200 0.8654", "1.1664 6.4000 0.3606", "1.1664 5.0800 0.8956",
  "1.1664 6.8600 0.4738", "1.1881 5.2000 0.8246", "1.1881 4.9700 0.7400", "1.2100 4.0000 0.3162", "1.2100 4.1900 0.8052",
  "1.2321 2.7500 0.6549", "1.2321 3.4400 0.6803", "1.2544 2.7100 0.7052", "1.2544 2.8600 0.3113", "1.2656 2.8100 0.3132",
  "1.2769 2.1500 0.5977", "1.2996 2.7500 0.5970", "1.3110 2.2200 0.3081", "1.3225 2.7500 0.6878", "1.3456 1.7400 0.2943",
  "1.3456 1.5200 0.4111", "1.3456 1.7800 0.2455", "1.3689 2.0000 0.5488", "1.3924 1.4000 0.3985", "1.4042 1.0400 0.1825",
  "1.4161 1.7200 0.4144", "1.4400 1.4800 0.2340", "1.4520 0.8000 0.1628", "1.4520 0.8200 0.2309", "1.5006 0.7700 0.1811",
  "1.5006 1.1200 0.2504", "1.5376 0.8700 0.1818", "1.5500 0.6200 0.1513", "1.5650 0.5500 0.1487", "1.6002 0.6600 0.2110",
  "1.6256 0.5300 0.1629", "1.6384 0.5400 0.1409", "1.6512 0.6800 0.1960", "1.6796 0.4800 0.1393", "1.7030 0.4300 0.1653",
  "1.7424 0.5400 0.1508", "1.7556 0.1600 0.0873", "1.7556 0.0400 0.0955", "1.8090 0.3300 0.1304", "1.8496 0.2900 0.1404",
  "1.8496 0.4000 0.1305", "1.8714 0.2400 0.0776", "1.8906 0.2800 0.1254", "1.9600 0.2200 0.1102", "2.0736 0.3200 0.1204",
  "2.1904 0.3600 0.1105", "2.3104 0.6600 0.1314", "2.4336 0.6700 0.1314", "2.5600 0.8400 0.1224", "2.6896 0.8300 0.1322",
  "2.8224 0.5100 0.1110", "2.9584 0.2600 0.1103", "3.0976 0.1100 0.0701", "3.2400 0.0300 0.0500", "3.3856 0.0400 0.0400",
  "3.5344 0.0200 0.0400", "3.6864 0.0700 0.0500", "3.8416 0.0900 0.0501", "4.0000 0.0200 0.0300", "4.1616 0.0200 0.0300",
  "4.3264 0.0000 0.0300", "4.4944 0.0100 0.0200", "4.6656 0.0200 0.0300"]

/-- `data/neutral_kaon_cropped_manually.csv:1-138`. -/
def neutralKaonCropped : List String := [
  "1.0081 6.8700 0.4378", "1.0084 12.3200 1.7724", "1.0085 18.4000 9.7950", "1.0093 13.5100 4.5758", "1.0206 42.8900 5.2905",
  "1.0210 42.1600 0.8926", "1.0218 53.9700 7.7247", "1.0227 54.1400 3.6771", "1.0227 57.8700 7.0886", "1.0261 96.7400 2.0080",
  "1.0304 219.5300 6.3887", "1.0321 370.7800 29.3840", "1.0322 378.5000 31.2203", "1.0325 366.3300 7.3871",
  "1.0330 433.5000 38.9829", "1.0341 611.5900 47.8922", "1.0342 656.4000 51.0251", "1.0345 658.3100 19.7556",
  "1.0346 624.7600 14.9759", "1.0347 655.4400 51.2167", "1.0361 1006.1400 55.8535", "1.0362 1078.3800 58.4399",
  "1.0364 999.5300 57.7083", "1.0366 1069.6600 41.4785", "1.0379 1344.7500 32.9288", "1.0383 1277.4700 38.8722",
  "1.0384 1322.3600 33.5836", "1.0384 1342.1000 33.8313", "1.0386 1413.6500 26.1481", "1.0388 1291.7300 43.6378",
  "1.0388 1433.0500 29.8543", "1.0392 1434.8400 31.7112", "1.0397 1219.3700 46.7653", "1.0402 1341.9100 24.6151",
  "1.0403 1127.9100 48.6849", "1.0404 1189.9200 32.7139", "1.0404 1150.4100 49.1945", "1.0407 1193.6700 42.4099",
  "1.0418 866.3900 45.3296", "1.0422 770.2400 41.4714", "1.0424 811.4700 42.7944", "1.0429 833.2000 15.7747",
  "1.0431 807.5400 17.8498", "1.0437 558.3900 32.5643", "1.0440 522.5900 33.0851", "1.0442 536.8700 30.5931",
  "1.0442 535.0400 35.9013", "1.0457 371.9800 24.5968", "1.0459 364.3800 27.5650", "1.0460 443.7100 9.1090",
  "1.0471 377.7700 8.6275", "1.0485 258.0700 13.8815", "1.0513 199.2600 6.1290", "1.0562 115.4600 9.6321",
  "1.0567 115.9300 2.6916", "1.0575 93.5800 9.0509", "1.0576 93.7500 7.8632", "1.0590 96.9600 3.4707", "1.0684 61.6900 8.0387",
  "1.0690 50.1200 1.5497", "1.0693 50.3100 7.2903", "1.0805 35.6100 5.8812", "1.0816 27.3000 1.9698", "1.0817 31.2700 1.1562",
  "1.1022 16.9300 0.5855", "1.1025 15.5000 1.3000", "1.1025 16.6500 2.0975", "1.1043 17.4700 0.9912", "1.1235 12.0900 0.7426",
  "1.1236 10.3000 0.5831", "1.1236 11.1000 1.1459", "1.1449 7.2000 0.8246", "1.1449 6.8200 0.8654", "1.1664 6.4000 0.3606",
  "1.1664 5.0800 0.8956", "1.1664 6.8600 0.4738", "1.1881 5.2000 0.8246", "1.1881 4.9700 0.7400", "1.2100 4.0000 0.3162",
  "1.2100 4.1900 0.8052", "1.2321 2.7500 0.6549", "1.2321 3.4400 0.6803", "1.2544 2.7100 0.7052", "1.2544 2.8600 0.3113",
  "1.2656 2.8100 0.3132", "1.2769 2.1500 0.5977", "1.2996 2.7500 0.5970", "1.3110 2.2200 0.3081", "1.3225 2.7500 0.6878",
  "1.3456 1.7400 0.2943", "1.3456 1.5200 0.4111", "1.3456 1.7800 0.2455", "1.3689 2.0000 0.5488", "1.3924 1.4000 0.3985",
  "1.4042 1.0400 0.1825", "1.4161 1.7200 0.4144", "1.4400 1.4800 0.2340", "1.4520 0.8000 0.1628", "1.4520 0.8200 0.2309",
  "1.5006 0.7700 0.1811", "1.5006 1.1200 0.2504", "1.5376 0.8700 0.1818", "1.5500 0.6200 0.1513", "1.5650 0.5500 0.1487",
  "1.6002 0.6600 0.2110", "1.6256 0.5300 0.1629", "1.6384 0.5400 0.1409", "1.6512 0.6800 0.1960", "1.6796 0.4800 0.1393",
  "1.7030 0.4300 0.1653", "1.7424 0.5400 0.1508", "1.7556 0.1600 0.0873", "1.7556 0.0400 0.0955", "1.8090 0.3300 0.1304",
  "1.8496 0.2900 0.1404", "1.8496 0.4000 0.1305", "1.8714 0.2400 0.0776", "1.8906 0.2800 0.1254", "1.9600 0.2200 0.1102",
  "2.0736 0.3200 0.1204", "2.1904 0.3600 0.1105", "2.3104 0.6600 0.1314", "2.4336 0.6700 0.1314", "2.5600 0.8400 0.1224",
  "2.6896 0.8300 0.1322", "2.8224 0.5100 0.1110", "2.9584 0.2600 0.1103", "3.0976 0.1100 0.0701", "3.2400 0.0300 0.0500",
  "3.3856 0.0400 0.0400", "3.5344 0.0200 0.0400", "3.6864 0.0700 0.0500", "3.8416 0.0900 0.0501", "4.0000 0.0200 0.0300",
  "4.1616 0.0200 0.0300", "4.3264 0.0000 0.0300", "4.4944 0.0100 0.0200", "4.6656 0.0200 0.0300"]

/-- `data/proton_cs_extended.csv:1-141`. -/
def protonCSExtended : List String := [
  "3.56643225 0.80600000 0.05491812", "3.56643225 0.72100000 0.07561085", "3.57210000 1.98000000 0.77833155",
  "3.61000000 1.20000000 0.29529646", "3.61000000 1.65000000 0.69835521", "3.61000000 1.21000000 0.51478151",
  "3.65765625 0.90600000 0.05936329", "3.65765625 0.73500000 0.08127115", "3.68640000 0.87000000 0.07071068",
  "3.70562500 0.90000000 0.07071068", "3.75390625 0.84500000 0.05630275", "3.75390625 0.78700000 0.08919641",
  "3.76360000 0.87000000 0.07071068", "3.80250000 0.89000000 0.07810250", "3.84160000 0.96000000 0.08485281",
  "3.85140625 0.81700000 0.05491812", "3.85140625 0.93300000 0.09620811", "3.90062500 0.90000000 0.07071068",
  "3.92040000 0.98000000 0.07810250", "3.95015625 0.85400000 0.05714018", "3.95015625 0.81800000 0.09889894",
  "4.00000000 0.95000000 0.08485281", "4.00000000 0.84130000 0.02733661", "4.05015625 0.84200000 0.05660389",
  "4.05015625 0.79700000 0.09360021", "4.05015625 0.79600000 0.09677293", "4.15140625 0.84600000 0.05714018",
  "4.15140625 0.83300000 0.08292768", "4.15140625 0.95000000 0.10046392", "4.20250000 0.75340000 0.02978490",
  "4.25390625 0.75000000 0.05300000", "4.25390625 0.72300000 0.06767570", "4.25390625 1.01100000 0.10346980",
  "4.35765625 0.79600000 0.05437830", "4.35765625 0.74900000 0.05780138", "4.35765625 0.79200000 0.09323090",
  "4.41000000 0.71260000 0.02329378", "4.46265625 0.77900000 0.05353504", "4.46265625 0.65400000 0.05630275",
  "4.46265625 0.76200000 0.08766413", "4.51562500 0.66000000 0.01992712", "4.56890625 0.66600000 0.05077401",
  "4.56890625 0.63700000 0.04940648", "4.56890625 0.61000000 0.07716217", "4.62250000 0.58880000 0.02468299",
  "4.67640625 0.55100000 0.04750789", "4.67640625 0.55700000 0.04743416", "4.67640625 0.65000000 0.07843469",
  "4.73062500 0.49100000 0.01682379", "4.78515625 0.42900000 0.04031129", "4.78515625 0.46700000 0.03920459",
  "4.78515625 0.42700000 0.06484597", "4.84000000 0.41160000 0.01386542", "4.89515625 0.39000000 0.03807887",
  "4.89515625 0.37100000 0.03420526", "4.89515625 0.38500000 0.06236185", "4.98360976 0.34190000 0.01159741",
  "5.00640625 0.37900000 0.03577709", "5.00640625 0.31000000 0.02906888", "5.00640625 0.31400000 0.05385165",
  "5.11890625 0.23400000 0.02996665", "5.11890625 0.22500000 0.02262742", "5.11890625 0.35900000 0.05508176",
  "5.23265625 0.20100000 0.02773085", "5.23265625 0.19200000 0.01979899", "5.23265625 0.18600000 0.04438468",
  "5.33332836 0.14800000 0.00648845", "5.40562500 0.14300000 0.01843909", "5.40562500 0.13610000 0.01131459",
  "5.40562500 0.15400000 0.02816026", "5.64062500 0.10500000 0.01627882", "5.64062500 0.11630000 0.01210372",
  "5.64062500 0.10700000 0.02376973", "5.69490496 0.12200000 0.00456070", "5.74081600 0.12190000 0.00393954",
  "5.88062500 0.11500000 0.01341641", "5.88062500 0.12610000 0.00956713", "5.88062500 0.10000000 0.02154066",
  "6.12562500 0.10100000 0.01208305", "6.12562500 0.10010000 0.00912853", "6.12562500 0.10800000 0.02024846",
  "6.25000000 0.07790000 0.01127209", "6.37562500 0.08400000 0.01077033", "6.37562500 0.06740000 0.00686222",
  "6.37562500 0.09000000 0.01772005", "6.63062500 0.05500000 0.00854400", "6.63062500 0.06110000 0.00590339",
  "6.63062500 0.06400000 0.01431782", "6.89062500 0.04000000 0.00854400", "6.89062500 0.04100000 0.00470106",
  "6.89062500 0.06700000 0.01334166", "6.99285136 0.03970000 0.00176918", "7.00343296 0.03820000 0.00176918",
  "7.15562500 0.02800000 0.00670820", "7.15562500 0.03360000 0.00394081", "7.15562500 0.03100000 0.01118034",
  "7.29000000 0.02980000 0.00688840", "7.42562500 0.03600000 0.00761577", "7.42562500 0.03070000 0.00424264",
  "7.42562500 0.02600000 0.01019804", "7.70062500 0.02900000 0.00670820", "7.70062500 0.02680000 0.00361248",
  "7.70062500 0.03300000 0.01019804", "7.84000000 0.02200000 0.00287924", "7.98062500 0.01800000 0.00509902",
  "7.98062500 0.02160000 0.00325269", "7.98062500 0.01800000 0.00905539", "8.26562500 0.02700000 0.00632456",
  "8.26562500 0.02040000 0.00284253", "8.26562500 0.03000000 0.00854400", "8.41000000 0.01500000 0.00070711",
  "8.55562500 0.01900000 0.00538516", "8.55562500 0.01020000 0.00272029", "8.55562500 0.01800000 0.00806226",
  "8.70250000 0.01170000 0.00117047", "8.85062500 0.02000000 0.00538516", "8.85062500 0.01410000 0.00264008",
  "8.85062500 0.01900000 0.00707107", "8.88636100 0.01290000 0.00120830", "9.00000000 0.00920000 0.00104403",
  "9.12040000 0.00900000 0.00094868", "9.48640000 0.00900000 0.00042426", "9.61000000 0.00420000 0.00256125",
  "9.61000000 0.00840000 0.00183109", "9.61000000 0.01110000 0.00169706", "10.89000000 0.00540000 0.00162788",
  "10.89000000 0.00380000 0.00071631", "10.89000000 0.00359000 0.00065115", "12.25000000 0.00160000 0.00067082",
  "12.25000000 0.00242000 0.00046029", "12.25000000 0.00218000 0.00039205", "13.69000000 0.00190000 0.00085440",
  "13.69000000 0.00098000 0.00030255", "13.69000000 0.00064000 0.00026249", "15.21000000 0.00020000 0.00044721",
  "15.21000000 0.00072000 0.00019217", "17.01562500 0.00030000 0.00036056", "18.06250000 0.00016500 0.00005341",
  "19.14062500 0.00030000 0.00036056", "25.00000000 0.00001800 0.00001003", "36.00000000 0.00000140 0.00000250"]

/-- `configuration.ini:1-30`. -/
def configurationIni : List String := [
  "[constants]", "alpha=0.0072973525693", "hc_squared=389379.3721  # in GeV^2 * nb", "charged_pion_mass=0.13957039  # in GeV",
  "charged_kaon_mass=0.493677  # in GeV", "proton_mass=0.938272  # in GeV",
  "proton_magnetic_moment=2.792847351  # in nuclear magnetons", "neutron_magnetic_moment=-1.91304273  # in nuclear magnetons", "",
  "[resonances]", "omega_mass=0.78266  # GeV", "omega_decay_rate=0.00868  # GeV", "omega_prime_mass=1.41  # GeV",
  "omega_prime_decay_rate=0.29  # GeV", "omega_double_prime_mass=1.67  # GeV", "omega_double_prime_decay_rate=0.315  # GeV",
  "phi_mass=1.019461  # GeV", "phi_decay_rate=0.004249  # GeV", "phi_prime_mass=1.680  # GeV",
  "phi_prime_decay_rate=0.150  # GeV", "phi_double_prime_mass=2.159  # GeV", "phi_double_prime_decay_rate=0.137  # GeV",
  "rho_mass=0.77526  # GeV  version2: 0.75823  version3: 0.76388",
  "rho_decay_rate=0.1474  # GeV  version2: 0.14456  version3: 0.14428",
  "rho_prime_mass=1.465  # GeV  version2: 1.342  version3: 1.32635",
  "rho_prime_decay_rate=0.4  # GeV  version2: 0.492  version3: 0.32413",
  "rho_double_prime_mass=1.72  # GeV  version2: 1.719  version3: 1.77054",
  "rho_double_prime_decay_rate=0.25  # GeV  version2: 0.490  version3: 0.26898", "rho_triple_prime_mass=2.15  # GeV",
  "rho_triple_prime_decay_rate=0.3  # GeV"]

end UA
