import Verif.Lemmas.Files

/-!
# The numerals in the data files
-/

namespace UA

/-- The numerals of `chargedFF2`. -/
def chargedFF2Table : List (Numeral × Numeral × Numeral) := [
  (⟨1, 8, 97515625⟩, ⟨2, 15, 17341021514577047⟩, ⟨2, 14, 1330942375865632⟩),
  (⟨1, 8, 98505625⟩, ⟨1, 15, 4736756756648572⟩, ⟨1, 16, 9146427261859248⟩),
  (⟨1, 8, 99500625⟩, ⟨1, 15, 7127572727540498⟩, ⟨1, 17, 46141613718316077⟩),
  (⟨1, 8, 100100025⟩, ⟨1, 15, 9212112041421042⟩, ⟨1, 15, 900324392605528⟩),
  (⟨1, 8, 100300225⟩, ⟨1, 16, 76473623899437095⟩, ⟨1, 16, 8915800975108286⟩),
  (⟨1, 8, 100500625⟩, ⟨1, 15, 9715328051765274⟩, ⟨1, 16, 8277947558327502⟩),
  (⟨1, 8, 100701225⟩, ⟨1, 15, 8850038262493287⟩, ⟨1, 16, 8563017766402741⟩),
  (⟨1, 8, 100902025⟩, ⟨2, 15, 10200861410738845⟩, ⟨1, 16, 8183244853314495⟩),
  (⟨1, 8, 101103025⟩, ⟨2, 15, 11832234642139314⟩, ⟨1, 16, 7890063255822637⟩),
  (⟨1, 8, 101304225⟩, ⟨2, 15, 13620099794414614⟩, ⟨1, 16, 7341403187009053⟩),
  (⟨1, 8, 101505625⟩, ⟨2, 15, 13372515998545499⟩, ⟨1, 16, 7417630705955282⟩),
  (⟨1, 8, 101707225⟩, ⟨2, 15, 14962653431368901⟩, ⟨1, 16, 7181250035667142⟩),
  (⟨1, 8, 101909025⟩, ⟨2, 14, 1648226305343729⟩, ⟨1, 16, 7085038353863796⟩),
  (⟨1, 8, 102111025⟩, ⟨2, 15, 18138316228331643⟩, ⟨1, 16, 6464985552659304⟩),
  (⟨1, 8, 102313225⟩, ⟨2, 15, 21973781411641045⟩, ⟨1, 16, 6233718322178209⟩),
  (⟨1, 8, 102515625⟩, ⟨2, 15, 24015330997035253⟩, ⟨1, 16, 6545453947153788⟩),
  (⟨1, 8, 102718225⟩, ⟨2, 15, 27393630923641382⟩, ⟨1, 16, 6331988972394124⟩),
  (⟨1, 8, 102921025⟩, ⟨2, 14, 3272491600073846⟩, ⟨1, 15, 639784777880036⟩),
  (⟨1, 8, 103124025⟩, ⟨2, 14, 4064079222595615⟩, ⟨1, 15, 640604670811692⟩),
  (⟨1, 8, 103327225⟩, ⟨2, 14, 4963768030808198⟩, ⟨1, 15, 657980248409373⟩),
  (⟨1, 8, 103530625⟩, ⟨2, 14, 6398388770866405⟩, ⟨1, 16, 6201658818494291⟩),
  (⟨1, 8, 103734225⟩, ⟨2, 14, 7660486738379997⟩, ⟨1, 16, 6680390474139797⟩),
  (⟨1, 8, 103938025⟩, ⟨2, 14, 7886174722472273⟩, ⟨1, 16, 6397157520279473⟩),
  (⟨1, 8, 104142025⟩, ⟨2, 14, 6696916809978703⟩, ⟨1, 16, 5879635636136407⟩),
  (⟨1, 8, 104346225⟩, ⟨2, 14, 5204004988795742⟩, ⟨1, 16, 4879170454793656⟩),
  (⟨1, 8, 104550625⟩, ⟨2, 14, 4302182478465274⟩, ⟨1, 16, 4516197848739724⟩),
  (⟨1, 8, 104755225⟩, ⟨2, 14, 3465901480432736⟩, ⟨1, 15, 482480045319714⟩),
  (⟨1, 8, 104960025⟩, ⟨2, 15, 30431181119118637⟩, ⟨1, 16, 4632839834196432⟩),
  (⟨1, 8, 105165025⟩, ⟨2, 14, 2615729486768013⟩, ⟨1, 16, 4695726609355174⟩),
  (⟨1, 8, 105370225⟩, ⟨2, 15, 23365502309783423⟩, ⟨1, 17, 43336384121668287⟩),
  (⟨1, 8, 105575625⟩, ⟨2, 14, 1984827240739877⟩, ⟨1, 16, 3955102815155595⟩),
  (⟨1, 8, 105781225⟩, ⟨2, 14, 1859823585502672⟩, ⟨1, 16, 4394948256969644⟩),
  (⟨1, 8, 105987025⟩, ⟨2, 15, 16952367653196365⟩, ⟨1, 17, 43397778333687687⟩),
  (⟨1, 8, 106193025⟩, ⟨2, 15, 16246099839509856⟩, ⟨1, 17, 38851170247289024⟩),
  (⟨1, 8, 106399225⟩, ⟨2, 15, 14314800831331665⟩, ⟨1, 17, 41521556131998427⟩),
  (⟨1, 8, 106605625⟩, ⟨2, 14, 1361633305773257⟩, ⟨1, 16, 4080810062778567⟩),
  (⟨1, 8, 106812225⟩, ⟨2, 15, 12271848036014523⟩, ⟨1, 14, 40358520826619⟩),
  (⟨1, 8, 107019025⟩, ⟨2, 15, 11762708004416034⟩, ⟨1, 16, 4033989724194582⟩),
  (⟨1, 8, 107226025⟩, ⟨2, 15, 10845613778724546⟩, ⟨1, 15, 388488628616025⟩),
  (⟨1, 8, 107433225⟩, ⟨2, 15, 10341671951322281⟩, ⟨1, 17, 38106894258699525⟩),
  (⟨1, 8, 107640625⟩, ⟨2, 15, 10530987837695822⟩, ⟨1, 16, 3428680186238844⟩),
  (⟨1, 8, 107848225⟩, ⟨1, 15, 9282987894321652⟩, ⟨1, 16, 3692849195842746⟩),
  (⟨1, 8, 108056025⟩, ⟨1, 15, 8631629477019132⟩, ⟨1, 17, 35705963515934214⟩),
  (⟨1, 8, 108680625⟩, ⟨1, 15, 8106961786999136⟩, ⟨1, 17, 15739646553570183⟩),
  (⟨1, 8, 109725625⟩, ⟨1, 15, 6890040603101923⟩, ⟨1, 16, 1510126981292286⟩),
  (⟨1, 8, 110775625⟩, ⟨1, 15, 5803446704979059⟩, ⟨1, 17, 14126963511070764⟩),
  (⟨1, 8, 111830625⟩, ⟨1, 15, 5068357818266345⟩, ⟨1, 17, 13489848235630933⟩),
  (⟨1, 8, 112890625⟩, ⟨1, 15, 4664288976351452⟩, ⟨1, 16, 1263619759228573⟩),
  (⟨1, 8, 113955625⟩, ⟨1, 15, 4284778253777582⟩, ⟨1, 17, 12010489686344235⟩),
  (⟨1, 8, 115025625⟩, ⟨1, 16, 38494194988092905⟩, ⟨1, 17, 11457941439236144⟩),
  (⟨1, 8, 116100625⟩, ⟨1, 14, 372662942959945⟩, ⟨1, 17, 11215120145078122⟩),
  (⟨1, 8, 117180625⟩, ⟨1, 15, 3547912318781534⟩, ⟨1, 17, 10690907117814695⟩),
  (⟨1, 8, 118265625⟩, ⟨1, 16, 31951884964825656⟩, ⟨1, 17, 10276087946998655⟩),
  (⟨1, 8, 119355625⟩, ⟨1, 15, 3117860334785171⟩, ⟨1, 17, 10197340062612882⟩),
  (⟨1, 8, 120450625⟩, ⟨1, 16, 29138866440495796⟩, ⟨1, 17, 9972411649848932⟩),
  (⟨1, 4, 12321⟩, ⟨1, 16, 26158538308037587⟩, ⟨1, 18, 46558995188857755⟩),
  (⟨1, 4, 12769⟩, ⟨1, 14, 223401158942905⟩, ⟨1, 18, 42534654983039474⟩),
  (⟨1, 4, 13225⟩, ⟨1, 15, 2004219114469564⟩, ⟨1, 18, 39957875384361574⟩),
  (⟨1, 4, 13689⟩, ⟨1, 16, 17971455703303505⟩, ⟨1, 17, 3781315333790963⟩),
  (⟨1, 4, 14161⟩, ⟨1, 16, 16894124222111018⟩, ⟨1, 17, 3627816182698132⟩),
  (⟨1, 4, 14641⟩, ⟨1, 16, 15937596859426324⟩, ⟨1, 17, 3764451303871249⟩),
  (⟨1, 4, 15129⟩, ⟨1, 15, 1441746173441957⟩, ⟨1, 16, 361534456763147⟩),
  (⟨1, 4, 15625⟩, ⟨1, 16, 15045619112365503⟩, ⟨1, 18, 34718110971330866⟩),
  (⟨1, 4, 16129⟩, ⟨1, 16, 13649137326904568⟩, ⟨1, 18, 33415737909255484⟩),
  (⟨1, 4, 16641⟩, ⟨1, 16, 13160216036773111⟩, ⟨1, 16, 320900997476303⟩),
  (⟨1, 4, 17161⟩, ⟨1, 16, 12559866667121853⟩, ⟨1, 17, 3497038735068881⟩),
  (⟨1, 4, 17689⟩, ⟨1, 16, 12207543828528271⟩, ⟨1, 17, 3413499725079487⟩),
  (⟨1, 4, 18225⟩, ⟨1, 16, 11505813977794006⟩, ⟨1, 16, 327788090936753⟩),
  (⟨1, 4, 18769⟩, ⟨1, 16, 11101818061555258⟩, ⟨1, 17, 3191314861180937⟩),
  (⟨1, 4, 19321⟩, ⟨1, 16, 11364072061621098⟩, ⟨1, 17, 3172318248079455⟩),
  (⟨1, 4, 19881⟩, ⟨1, 16, 10446338432261355⟩, ⟨1, 18, 30660712229713692⟩),
  (⟨1, 4, 20449⟩, ⟨1, 16, 10286000859901263⟩, ⟨1, 18, 29997672610105185⟩),
  (⟨1, 4, 21025⟩, ⟨1, 15, 1006327449084965⟩, ⟨1, 18, 29679722126690063⟩),
  (⟨1, 4, 21609⟩, ⟨1, 15, 958588147051582⟩, ⟨1, 18, 29128968099995274⟩),
  (⟨1, 4, 22201⟩, ⟨1, 16, 9188978641917137⟩, ⟨1, 18, 28536574521724842⟩),
  (⟨1, 4, 22801⟩, ⟨1, 16, 9355564799212025⟩, ⟨1, 17, 2949024967038377⟩),
  (⟨1, 4, 23409⟩, ⟨1, 16, 8827579270745693⟩, ⟨1, 17, 2908850157174245⟩),
  (⟨1, 4, 24025⟩, ⟨1, 16, 8610337173863382⟩, ⟨1, 18, 28996306193648968⟩),
  (⟨1, 4, 24649⟩, ⟨1, 15, 893623700602303⟩, ⟨1, 18, 28820889954034305⟩),
  (⟨1, 4, 25281⟩, ⟨1, 16, 8841941211156765⟩, ⟨1, 17, 2851242114393193⟩),
  (⟨1, 4, 25921⟩, ⟨1, 16, 8404786924921109⟩, ⟨1, 18, 28387483193195236⟩),
  (⟨1, 4, 26569⟩, ⟨1, 16, 8089772515044701⟩, ⟨1, 17, 2803836137147434⟩),
  (⟨1, 4, 27225⟩, ⟨1, 16, 7847110459693003⟩, ⟨1, 17, 2753775016921495⟩),
  (⟨1, 4, 27889⟩, ⟨1, 16, 6820659607476858⟩, ⟨1, 17, 2702330344522666⟩),
  (⟨1, 4, 28561⟩, ⟨1, 16, 5393512574454119⟩, ⟨1, 18, 26348374635825192⟩),
  (⟨1, 4, 29241⟩, ⟨1, 14, 45766822330549⟩, ⟨1, 18, 28818381507571267⟩),
  (⟨1, 4, 29929⟩, ⟨1, 17, 46480380949672545⟩, ⟨1, 18, 28768816391233205⟩),
  (⟨1, 4, 30625⟩, ⟨1, 17, 36883188894450925⟩, ⟨1, 17, 2791254645553302⟩),
  (⟨1, 4, 31329⟩, ⟨1, 17, 29045585206014396⟩, ⟨1, 17, 2741036885938314⟩),
  (⟨1, 4, 32041⟩, ⟨1, 17, 18625303299425078⟩, ⟨1, 18, 29163004583944444⟩),
  (⟨1, 4, 32761⟩, ⟨1, 17, 23537249777353325⟩, ⟨1, 17, 2598949849801563⟩),
  (⟨1, 4, 33489⟩, ⟨1, 17, 27909090125830444⟩, ⟨1, 18, 26787224104956563⟩),
  (⟨1, 4, 34225⟩, ⟨1, 17, 23052530883587555⟩, ⟨1, 18, 27138649810180555⟩),
  (⟨1, 4, 34969⟩, ⟨1, 16, 2923510879349168⟩, ⟨1, 18, 26421120409376504⟩),
  (⟨1, 4, 35721⟩, ⟨1, 15, 251082630443383⟩, ⟨1, 17, 2707350956797794⟩),
  (⟨1, 4, 36481⟩, ⟨1, 17, 29991505226962406⟩, ⟨1, 18, 27832569275569242⟩),
  (⟨1, 4, 37249⟩, ⟨1, 16, 2988440404040395⟩, ⟨1, 18, 27811098798864602⟩),
  (⟨1, 4, 38025⟩, ⟨1, 17, 30070640066759985⟩, ⟨1, 18, 27876191254966015⟩),
  (⟨1, 4, 38809⟩, ⟨1, 16, 3081089756678369⟩, ⟨1, 18, 28140387012862127⟩),
  (⟨1, 4, 39601⟩, ⟨1, 16, 2836484841363112⟩, ⟨1, 18, 28396388161851607⟩), (⟨1, 1, 40⟩, ⟨1, 15, 313771352249372⟩, ⟨1, 17, 543426318196037⟩),
  (⟨1, 4, 42025⟩, ⟨1, 16, 2917929066458514⟩, ⟨1, 18, 7437729397831469⟩), (⟨1, 2, 441⟩, ⟨1, 17, 25528617840799445⟩, ⟨1, 16, 46671184981669⟩),
  (⟨1, 6, 4515625⟩, ⟨1, 17, 23980583293897684⟩, ⟨1, 19, 31430125345723024⟩),
  (⟨1, 4, 46225⟩, ⟨1, 17, 22835310370971773⟩, ⟨1, 18, 7643765331330469⟩),
  (⟨1, 6, 4730625⟩, ⟨1, 16, 2381791475304572⟩, ⟨1, 19, 47355342079961355⟩),
  (⟨1, 2, 484⟩, ⟨1, 16, 2688431753151713⟩, ⟨1, 18, 4807499514478347⟩),
  (⟨1, 8, 498360976⟩, ⟨1, 17, 28381785268556053⟩, ⟨1, 18, 5033246483508809⟩),
  (⟨1, 8, 533332836⟩, ⟨1, 17, 24733801736372765⟩, ⟨1, 18, 4199503630335757⟩),
  (⟨1, 8, 569490496⟩, ⟨1, 17, 18783043239719277⟩, ⟨1, 19, 37298949728091974⟩),
  (⟨1, 6, 5740816⟩, ⟨1, 17, 18937063081255337⟩, ⟨1, 19, 31022335558556187⟩),
  (⟨1, 2, 625⟩, ⟨1, 17, 18084098490168782⟩, ⟨1, 18, 12846882174523911⟩),
  (⟨1, 8, 699285136⟩, ⟨1, 17, 15110253028137813⟩, ⟨1, 19, 38985205299219197⟩),
  (⟨1, 8, 700343296⟩, ⟨1, 17, 15132255913679243⟩, ⟨1, 18, 3396863736892961⟩),
  (⟨1, 2, 729⟩, ⟨1, 17, 12294469264192778⟩, ⟨1, 18, 14394351066892373⟩),
  (⟨1, 2, 784⟩, ⟨1, 16, 1292295707468891⟩, ⟨1, 18, 15280289400080957⟩),
  (⟨1, 2, 841⟩, ⟨1, 17, 11901430420555219⟩, ⟨1, 18, 3327702584694716⟩),
  (⟨1, 4, 87025⟩, ⟨1, 17, 11008150647045507⟩, ⟨1, 18, 5134420633280806⟩),
  (⟨1, 6, 8886361⟩, ⟨1, 17, 11679493454574415⟩, ⟨1, 18, 4719228012887694⟩),
  (⟨1, 1, 90⟩, ⟨1, 17, 10959551949067223⟩, ⟨1, 18, 5262100638828959⟩),
  (⟨1, 4, 91204⟩, ⟨1, 17, 11109320476233996⟩, ⟨1, 18, 5247977821515105⟩),
  (⟨1, 4, 94864⟩, ⟨1, 17, 11404208212719509⟩, ⟨1, 18, 5203292324367133⟩),
  (⟨1, 2, 961⟩, ⟨1, 17, 10181788106979998⟩, ⟨1, 17, 401219247770852⟩),
  (⟨2, 2, 1089⟩, ⟨1, 17, 9002534744833061⟩, ⟨1, 19, 29957747936417024⟩),
  (⟨2, 2, 1225⟩, ⟨1, 17, 6960078127060174⟩, ⟨1, 19, 29624941335140583⟩),
  (⟨2, 2, 1369⟩, ⟨1, 18, 57687585945914686⟩, ⟨1, 19, 29573030285905337⟩),
  (⟨2, 2, 1521⟩, ⟨1, 17, 5633069525768936⟩, ⟨1, 18, 2507247383942782⟩),
  (⟨2, 2, 1681⟩, ⟨1, 18, 45054905310963914⟩, ⟨1, 19, 23465822441234682⟩),
  (⟨2, 2, 1849⟩, ⟨1, 18, 39656934218870586⟩, ⟨1, 19, 23130533269595664⟩),
  (⟨2, 2, 2025⟩, ⟨1, 18, 28458098406552938⟩, ⟨1, 19, 22333846464762048⟩),
  (⟨2, 2, 2209⟩, ⟨1, 18, 26888886118328487⟩, ⟨1, 19, 21898306911489348⟩),
  (⟨2, 2, 2401⟩, ⟨1, 18, 24764473456144586⟩, ⟨1, 19, 20757037221199107⟩),
  (⟨2, 2, 2601⟩, ⟨1, 18, 21356624024259547⟩, ⟨1, 19, 23173564531830185⟩),
  (⟨2, 4, 286225⟩, ⟨1, 18, 21431750296738217⟩, ⟨1, 19, 15610581118497802⟩),
  (⟨2, 4, 330625⟩, ⟨1, 18, 15010590475333655⟩, ⟨1, 19, 14816433134579763⟩),
  (⟨2, 4, 390625⟩, ⟨1, 18, 9283048168379087⟩, ⟨1, 18, 2069161647244948⟩),
  (⟨2, 4, 455625⟩, ⟨1, 18, 9783563069954659⟩, ⟨1, 19, 19197140851711304⟩),
  (⟨2, 4, 525625⟩, ⟨1, 18, 6834175533632266⟩, ⟨1, 18, 2488135335538826⟩)]

set_option maxRecDepth 20000 in
theorem chargedFF2_table : chargedFF2 = chargedFF2Table.map rowText := rfl

/-- The numerals of `chargedKaon`. -/
def chargedKaonTable : List (Numeral × Numeral × Numeral) := [
  (⟨1, 8, 97515625⟩, ⟨1, 8, 3404300⟩, ⟨1, 8, 601017⟩), (⟨1, 8, 98505625⟩, ⟨1, 8, 52023100⟩, ⟨1, 8, 4201780⟩),
  (⟨1, 8, 99500625⟩, ⟨1, 8, 319217100⟩, ⟨1, 8, 18133795⟩), (⟨1, 8, 100100025⟩, ⟨1, 8, 776483700⟩, ⟨1, 8, 230041250⟩),
  (⟨1, 8, 100300225⟩, ⟨1, 8, 594779000⟩, ⟨1, 8, 192163599⟩), (⟨1, 8, 100500625⟩, ⟨2, 8, 1059019600⟩, ⟨1, 8, 325047382⟩),
  (⟨1, 8, 100701225⟩, ⟨1, 8, 963146100⟩, ⟨1, 8, 346848510⟩), (⟨1, 8, 100902025⟩, ⟨2, 8, 1394397800⟩, ⟨1, 8, 499331257⟩),
  (⟨1, 8, 101103025⟩, ⟨2, 8, 2033948600⟩, ⟨1, 8, 733220873⟩), (⟨1, 8, 101304225⟩, ⟨2, 8, 2908580000⟩, ⟨1, 8, 977752106⟩),
  (⟨1, 8, 101505625⟩, ⟨2, 8, 3013582700⟩, ⟨2, 8, 1111881320⟩), (⟨1, 8, 101707225⟩, ⟨2, 8, 4040223900⟩, ⟨2, 8, 1493412043⟩),
  (⟨1, 8, 101909025⟩, ⟨2, 8, 5232348900⟩, ⟨2, 8, 2005554588⟩), (⟨1, 8, 102111025⟩, ⟨2, 8, 6742238500⟩, ⟨2, 8, 2286936198⟩),
  (⟨1, 8, 102313225⟩, ⟨3, 8, 10499093100⟩, ⟨2, 8, 3492203160⟩), (⟨1, 8, 102515625⟩, ⟨3, 8, 13271958500⟩, ⟨2, 8, 5143558464⟩),
  (⟨1, 8, 102718225⟩, ⟨3, 8, 18232391500⟩, ⟨2, 8, 6933331978⟩), (⟨1, 8, 102921025⟩, ⟨3, 8, 27411727700⟩, ⟨3, 8, 11100203900⟩),
  (⟨1, 8, 103124025⟩, ⟨3, 8, 44448373400⟩, ⟨3, 8, 18613421243⟩), (⟨1, 8, 103327225⟩, ⟨3, 8, 69580222400⟩, ⟨3, 8, 31522035133⟩),
  (⟨1, 8, 103530625⟩, ⟨4, 8, 121107223200⟩, ⟨3, 8, 47520253507⟩), (⟨1, 8, 103734225⟩, ⟨4, 8, 181548296500⟩, ⟨3, 8, 83185676254⟩),
  (⟨1, 8, 103938025⟩, ⟨4, 8, 200906012900⟩, ⟨3, 8, 85327745166⟩), (⟨1, 8, 104142025⟩, ⟨4, 8, 151064307700⟩, ⟨3, 8, 58541439891⟩),
  (⟨1, 8, 104346225⟩, ⟨3, 8, 94983482000⟩, ⟨3, 8, 27054601061⟩), (⟨1, 8, 104550625⟩, ⟨3, 8, 67507793200⟩, ⟨3, 8, 17732128744⟩),
  (⟨1, 8, 104755225⟩, ⟨3, 8, 45507878000⟩, ⟨3, 8, 14983113634⟩), (⟨1, 8, 104960025⟩, ⟨3, 8, 36397603900⟩, ⟨3, 8, 11598006796⟩),
  (⟨1, 8, 105165025⟩, ⟨3, 8, 27869647100⟩, ⟨2, 8, 9611952679⟩), (⟨1, 8, 105370225⟩, ⟨3, 8, 23022938500⟩, ⟨2, 8, 7020686606⟩),
  (⟨1, 8, 105575625⟩, ⟨3, 8, 17182932400⟩, ⟨2, 8, 4538107430⟩), (⟨1, 8, 105781225⟩, ⟨3, 8, 15589575300⟩, ⟨2, 8, 5303857919⟩),
  (⟨1, 8, 105987025⟩, ⟨3, 8, 13372340400⟩, ⟨2, 8, 4595893068⟩), (⟨1, 8, 106193025⟩, ⟨3, 8, 12668812000⟩, ⟨2, 8, 3557154864⟩),
  (⟨1, 8, 106399225⟩, ⟨3, 8, 10137971900⟩, ⟨2, 8, 3385745512⟩), (⟨1, 8, 106605625⟩, ⟨2, 8, 9447374500⟩, ⟨2, 8, 3143213825⟩),
  (⟨1, 8, 106812225⟩, ⟨2, 8, 7897747600⟩, ⟨2, 8, 2654250078⟩), (⟨1, 8, 107019025⟩, ⟨2, 8, 7462534300⟩, ⟨2, 8, 2580461629⟩),
  (⟨1, 8, 107226025⟩, ⟨2, 8, 6520442900⟩, ⟨2, 8, 2152035016⟩), (⟨1, 8, 107433225⟩, ⟨2, 8, 6089312100⟩, ⟨2, 8, 1987710422⟩),
  (⟨1, 8, 107640625⟩, ⟨2, 8, 6481491100⟩, ⟨2, 8, 1751767403⟩), (⟨1, 8, 107848225⟩, ⟨2, 8, 5166602000⟩, ⟨2, 8, 1671021975⟩),
  (⟨1, 8, 108056025⟩, ⟨2, 8, 4579947800⟩, ⟨2, 8, 1421122116⟩), (⟨1, 8, 108680625⟩, ⟨2, 8, 4340466200⟩, ⟨1, 8, 254083281⟩),
  (⟨1, 8, 109620900⟩, ⟨2, 8, 3624300000⟩, ⟨1, 8, 75650843⟩), (⟨1, 8, 109725625⟩, ⟨2, 8, 3499577600⟩, ⟨1, 8, 216673674⟩),
  (⟨1, 8, 110775625⟩, ⟨2, 8, 2742988300⟩, ⟨1, 8, 166717058⟩), (⟨1, 8, 111830625⟩, ⟨2, 8, 2291198400⟩, ⟨1, 8, 141284669⟩),
  (⟨1, 8, 112890625⟩, ⟨2, 8, 2109121600⟩, ⟨1, 8, 124742102⟩), (⟨1, 8, 113955625⟩, ⟨2, 8, 1921957300⟩, ⟨1, 8, 111629538⟩),
  (⟨1, 8, 115025625⟩, ⟨2, 8, 1665471600⟩, ⟨1, 8, 95425844⟩), (⟨1, 8, 115562500⟩, ⟨2, 8, 1848300000⟩, ⟨1, 8, 38810437⟩),
  (⟨1, 8, 116100625⟩, ⟨2, 8, 1667369900⟩, ⟨1, 8, 97753736⟩), (⟨1, 8, 117180625⟩, ⟨2, 8, 1607066400⟩, ⟨1, 8, 91265263⟩),
  (⟨1, 8, 118265625⟩, ⟨2, 8, 1380417900⟩, ⟨1, 8, 77392187⟩), (⟨1, 8, 119355625⟩, ⟨2, 8, 1387000800⟩, ⟨1, 8, 80733003⟩),
  (⟨1, 8, 120340900⟩, ⟨2, 8, 1418400000⟩, ⟨1, 8, 30560105⟩), (⟨1, 8, 120450625⟩, ⟨2, 8, 1274152600⟩, ⟨1, 8, 74901952⟩),
  (⟨1, 8, 123210000⟩, ⟨2, 8, 1150355200⟩, ⟨1, 8, 23030746⟩), (⟨1, 8, 126337600⟩, ⟨2, 8, 1130700000⟩, ⟨1, 8, 24740655⟩),
  (⟨1, 8, 127690000⟩, ⟨1, 8, 976316100⟩, ⟨1, 8, 19573176⟩), (⟨1, 8, 132250000⟩, ⟨1, 8, 888818700⟩, ⟨1, 8, 17927034⟩),
  (⟨1, 8, 132480100⟩, ⟨1, 8, 941500000⟩, ⟨1, 8, 22748187⟩), (⟨1, 8, 136890000⟩, ⟨1, 8, 791164500⟩, ⟨1, 8, 16022790⟩),
  (⟨1, 8, 137827600⟩, ⟨1, 8, 914800000⟩, ⟨1, 8, 20833147⟩), (⟨1, 8, 141610000⟩, ⟨1, 8, 761148500⟩, ⟨1, 8, 15464118⟩),
  (⟨1, 8, 143041600⟩, ⟨1, 8, 773700000⟩, ⟨1, 8, 18333030⟩), (⟨1, 8, 146410000⟩, ⟨1, 8, 727651500⟩, ⟨1, 8, 18644768⟩),
  (⟨1, 8, 149572900⟩, ⟨1, 8, 726900000⟩, ⟨1, 8, 20357063⟩), (⟨1, 8, 151290000⟩, ⟨1, 8, 632698100⟩, ⟨1, 8, 16258027⟩),
  (⟨1, 8, 155002500⟩, ⟨1, 8, 662400000⟩, ⟨1, 8, 20840585⟩), (⟨1, 8, 156250000⟩, ⟨1, 8, 725538600⟩, ⟨1, 8, 18320289⟩),
  (⟨1, 8, 161290000⟩, ⟨1, 8, 624004600⟩, ⟨1, 8, 15760066⟩), (⟨1, 8, 162052900⟩, ⟨1, 8, 651800000⟩, ⟨1, 8, 19188799⟩),
  (⟨1, 8, 163072900⟩, ⟨1, 8, 635800000⟩, ⟨1, 8, 17660408⟩), (⟨1, 8, 166410000⟩, ⟨1, 8, 602362500⟩, ⟨1, 8, 15067220⟩),
  (⟨1, 8, 167702500⟩, ⟨1, 8, 596400000⟩, ⟨1, 8, 20103980⟩), (⟨1, 8, 171610000⟩, ⟨1, 8, 566600700⟩, ⟨1, 8, 20109765⟩),
  (⟨1, 8, 175032900⟩, ⟨1, 8, 571800000⟩, ⟨1, 8, 17217723⟩), (⟨1, 8, 176890000⟩, ⟨1, 8, 550158300⟩, ⟨1, 8, 19495915⟩),
  (⟨1, 8, 180633600⟩, ⟨1, 8, 516000000⟩, ⟨1, 8, 16329421⟩), (⟨1, 8, 182250000⟩, ⟨1, 8, 500275400⟩, ⟨1, 8, 17667569⟩),
  (⟨1, 8, 184144900⟩, ⟨1, 8, 533900000⟩, ⟨1, 8, 15101324⟩), (⟨1, 8, 187690000⟩, ⟨1, 8, 475062300⟩, ⟨1, 8, 16741646⟩),
  (⟨1, 8, 188787600⟩, ⟨1, 8, 530800000⟩, ⟨1, 8, 15035957⟩), (⟨1, 8, 193210000⟩, ⟨1, 8, 506118300⟩, ⟨1, 8, 17795314⟩),
  (⟨1, 8, 194323600⟩, ⟨1, 8, 500100000⟩, ⟨1, 8, 14713939⟩), (⟨1, 8, 198810000⟩, ⟨1, 8, 433638900⟩, ⟨1, 8, 15245632⟩),
  (⟨1, 8, 202492900⟩, ⟨1, 8, 457900000⟩, ⟨1, 8, 13641847⟩), (⟨1, 8, 204490000⟩, ⟨1, 8, 425246100⟩, ⟨1, 8, 14905311⟩),
  (⟨1, 8, 205922500⟩, ⟨1, 8, 411400000⟩, ⟨1, 8, 12067311⟩), (⟨1, 8, 208224900⟩, ⟨1, 8, 425400000⟩, ⟨1, 8, 14838464⟩),
  (⟨1, 8, 210250000⟩, ⟨1, 8, 410792000⟩, ⟨1, 8, 14397553⟩), (⟨1, 8, 216090000⟩, ⟨1, 8, 375451900⟩, ⟨1, 8, 13156464⟩),
  (⟨1, 8, 216384100⟩, ⟨1, 8, 409300000⟩, ⟨1, 8, 12432618⟩), (⟨1, 8, 222010000⟩, ⟨1, 8, 346905200⟩, ⟨1, 8, 12140972⟩),
  (⟨1, 8, 223203600⟩, ⟨1, 8, 364600000⟩, ⟨1, 8, 12042010⟩), (⟨1, 8, 228010000⟩, ⟨1, 8, 361009900⟩, ⟨1, 8, 13880134⟩),
  (⟨1, 8, 229522500⟩, ⟨1, 8, 357400000⟩, ⟨1, 8, 11151681⟩), (⟨1, 8, 231648400⟩, ⟨1, 8, 367900000⟩, ⟨1, 8, 13370116⟩),
  (⟨1, 8, 234090000⟩, ⟨1, 8, 322217900⟩, ⟨1, 8, 12403364⟩), (⟨1, 8, 238084900⟩, ⟨1, 8, 338200000⟩, ⟨1, 8, 13003461⟩),
  (⟨1, 8, 240250000⟩, ⟨1, 8, 306929400⟩, ⟨1, 8, 11825634⟩), (⟨1, 8, 246490000⟩, ⟨1, 8, 330625800⟩, ⟨1, 8, 12698479⟩),
  (⟨1, 8, 247118400⟩, ⟨1, 8, 351800000⟩, ⟨1, 8, 13017296⟩), (⟨1, 8, 252810000⟩, ⟨1, 8, 323367500⟩, ⟨1, 8, 12404061⟩),
  (⟨1, 8, 254083600⟩, ⟨1, 8, 350700000⟩, ⟨1, 8, 15910060⟩), (⟨1, 8, 254402500⟩, ⟨1, 8, 330200000⟩, ⟨1, 8, 10547512⟩),
  (⟨1, 8, 259210000⟩, ⟨1, 8, 291618300⟩, ⟨1, 8, 11206815⟩), (⟨1, 8, 263412900⟩, ⟨1, 8, 302200000⟩, ⟨1, 8, 11069327⟩),
  (⟨1, 8, 265690000⟩, ⟨1, 8, 269412800⟩, ⟨1, 8, 10350060⟩), (⟨1, 8, 269944900⟩, ⟨1, 8, 281500000⟩, ⟨1, 8, 11294689⟩),
  (⟨1, 8, 272250000⟩, ⟨1, 8, 252584700⟩, ⟨1, 8, 9687547⟩), (⟨1, 8, 278556100⟩, ⟨1, 8, 215500000⟩, ⟨1, 8, 9613532⟩),
  (⟨1, 8, 278890000⟩, ⟨1, 8, 190007200⟩, ⟨1, 8, 7303633⟩), (⟨1, 8, 280227600⟩, ⟨1, 8, 177000000⟩, ⟨1, 8, 6931811⟩),
  (⟨1, 8, 285610000⟩, ⟨1, 8, 118224000⟩, ⟨1, 8, 4554674⟩), (⟨1, 8, 286624900⟩, ⟨1, 8, 157000000⟩, ⟨1, 8, 8420214⟩),
  (⟨1, 8, 292410000⟩, ⟨1, 8, 84654200⟩, ⟨1, 8, 6010663⟩), (⟨1, 8, 294465600⟩, ⟨1, 8, 111500000⟩, ⟨1, 8, 7905694⟩),
  (⟨1, 8, 296872900⟩, ⟨1, 8, 96800000⟩, ⟨1, 8, 7184010⟩), (⟨1, 8, 299290000⟩, ⟨1, 8, 86782700⟩, ⟨1, 8, 6159194⟩),
  (⟨1, 8, 303456400⟩, ⟨1, 8, 63300000⟩, ⟨1, 8, 5263079⟩), (⟨1, 8, 306250000⟩, ⟨1, 8, 54285000⟩, ⟨1, 8, 3858108⟩),
  (⟨1, 8, 309056400⟩, ⟨1, 8, 50300000⟩, ⟨1, 8, 4049691⟩), (⟨1, 8, 313290000⟩, ⟨1, 8, 33428200⟩, ⟨1, 8, 2378164⟩),
  (⟨1, 8, 314707600⟩, ⟨1, 8, 31000000⟩, ⟨1, 8, 3710795⟩), (⟨1, 8, 320410000⟩, ⟨1, 8, 13642900⟩, ⟨1, 8, 975970⟩),
  (⟨1, 8, 321484900⟩, ⟨1, 8, 17000000⟩, ⟨1, 8, 3590265⟩), (⟨1, 8, 323280400⟩, ⟨1, 8, 18700000⟩, ⟨1, 8, 2968164⟩),
  (⟨1, 8, 327610000⟩, ⟨1, 8, 21616800⟩, ⟨1, 8, 1535532⟩), (⟨1, 8, 333427600⟩, ⟨1, 8, 21500000⟩, ⟨1, 8, 3605551⟩),
  (⟨1, 8, 334890000⟩, ⟨1, 8, 30143800⟩, ⟨1, 8, 2141819⟩), (⟨1, 8, 338560000⟩, ⟨1, 8, 29300000⟩, ⟨1, 8, 4332436⟩),
  (⟨1, 8, 341880100⟩, ⟨1, 8, 17100000⟩, ⟨1, 8, 4294182⟩), (⟨1, 8, 342250000⟩, ⟨1, 8, 20390600⟩, ⟨1, 8, 1450761⟩),
  (⟨1, 8, 349690000⟩, ⟨1, 8, 32505700⟩, ⟨1, 8, 2307061⟩), (⟨1, 8, 350064100⟩, ⟨1, 8, 29100000⟩, ⟨1, 8, 3981206⟩),
  (⟨1, 8, 351187600⟩, ⟨1, 8, 27600000⟩, ⟨1, 8, 3667424⟩), (⟨1, 8, 357210000⟩, ⟨1, 8, 23758700⟩, ⟨1, 8, 1688977⟩),
  (⟨1, 8, 358344900⟩, ⟨1, 8, 34500000⟩, ⟨1, 8, 4308132⟩), (⟨1, 8, 361380100⟩, ⟨1, 8, 34300000⟩, ⟨1, 8, 5069517⟩),
  (⟨1, 8, 362140900⟩, ⟨1, 8, 28700000⟩, ⟨1, 8, 3712142⟩), (⟨1, 8, 364810000⟩, ⟨1, 8, 33582800⟩, ⟨1, 8, 2387512⟩),
  (⟨1, 8, 370947600⟩, ⟨1, 8, 36700000⟩, ⟨1, 8, 4681880⟩), (⟨1, 8, 371332900⟩, ⟨1, 8, 31600000⟩, ⟨1, 8, 4427189⟩),
  (⟨1, 8, 372490000⟩, ⟨1, 8, 33024900⟩, ⟨1, 8, 2347389⟩), (⟨1, 8, 378302500⟩, ⟨1, 8, 26300000⟩, ⟨1, 8, 3716181⟩),
  (⟨1, 8, 380250000⟩, ⟨1, 8, 33111500⟩, ⟨1, 8, 2353258⟩), (⟨1, 8, 381420900⟩, ⟨1, 8, 35700000⟩, ⟨1, 8, 6281720⟩),
  (⟨1, 8, 386908900⟩, ⟨1, 8, 33100000⟩, ⟨1, 8, 4365776⟩), (⟨1, 8, 388090000⟩, ⟨1, 8, 34416000⟩, ⟨1, 8, 2446143⟩),
  (⟨1, 8, 391248400⟩, ⟨1, 8, 33200000⟩, ⟨1, 8, 5756735⟩), (⟨1, 8, 395612100⟩, ⟨1, 8, 34600000⟩, ⟨1, 8, 4838388⟩),
  (⟨1, 8, 396010000⟩, ⟨1, 8, 28873200⟩, ⟨1, 8, 2053666⟩), (⟨1, 8, 400000000⟩, ⟨1, 8, 35150000⟩, ⟨1, 8, 1217539⟩),
  (⟨1, 8, 402002500⟩, ⟨1, 8, 36700000⟩, ⟨1, 8, 5059644⟩), (⟨1, 8, 404010000⟩, ⟨1, 8, 37395700⟩, ⟨1, 8, 2653675⟩),
  (⟨1, 8, 412090000⟩, ⟨1, 8, 32172900⟩, ⟨1, 8, 2281719⟩), (⟨1, 8, 420250000⟩, ⟨1, 8, 19298700⟩, ⟨1, 8, 1372125⟩),
  (⟨1, 8, 420250000⟩, ⟨1, 8, 29610000⟩, ⟨1, 8, 1509503⟩), (⟨1, 8, 428490000⟩, ⟨1, 8, 29156400⟩, ⟨1, 8, 2067063⟩),
  (⟨1, 8, 436810000⟩, ⟨1, 8, 15409600⟩, ⟨1, 8, 1097094⟩), (⟨1, 8, 441000000⟩, ⟨1, 8, 22060000⟩, ⟨1, 8, 806598⟩),
  (⟨1, 8, 445210000⟩, ⟨1, 8, 19066900⟩, ⟨1, 8, 1353837⟩), (⟨1, 8, 451562500⟩, ⟨1, 8, 19200000⟩, ⟨1, 8, 503289⟩),
  (⟨1, 8, 453690000⟩, ⟨1, 8, 22421100⟩, ⟨1, 8, 1590673⟩), (⟨1, 8, 462250000⟩, ⟨1, 8, 17170000⟩, ⟨1, 8, 1149478⟩),
  (⟨1, 8, 462250000⟩, ⟨1, 8, 14126700⟩, ⟨1, 8, 1001955⟩), (⟨1, 8, 470890000⟩, ⟨1, 8, 9976100⟩, ⟨1, 8, 709704⟩),
  (⟨1, 8, 473062500⟩, ⟨1, 8, 18420000⟩, ⟨1, 8, 732462⟩), (⟨1, 8, 479610000⟩, ⟨1, 8, 22012900⟩, ⟨1, 8, 1562045⟩),
  (⟨1, 8, 484000000⟩, ⟨1, 8, 23140000⟩, ⟨1, 8, 827587⟩), (⟨1, 8, 488410000⟩, ⟨1, 8, 23219200⟩, ⟨1, 8, 1645854⟩),
  (⟨1, 8, 497290000⟩, ⟨1, 8, 25413100⟩, ⟨1, 8, 1802387⟩), (⟨1, 8, 498360976⟩, ⟨1, 8, 25320000⟩, ⟨1, 8, 898053⟩),
  (⟨1, 8, 506250000⟩, ⟨1, 8, 31236100⟩, ⟨1, 8, 2210093⟩), (⟨1, 8, 515290000⟩, ⟨1, 8, 13028400⟩, ⟨1, 8, 922874⟩),
  (⟨1, 8, 524410000⟩, ⟨1, 8, 26799300⟩, ⟨1, 8, 1895831⟩), (⟨1, 8, 533332836⟩, ⟨1, 8, 18400000⟩, ⟨1, 8, 624820⟩),
  (⟨1, 8, 533610000⟩, ⟨1, 8, 21410900⟩, ⟨1, 8, 1254501⟩), (⟨1, 8, 542890000⟩, ⟨1, 8, 15052700⟩, ⟨1, 8, 883073⟩),
  (⟨1, 8, 552250000⟩, ⟨1, 8, 10188300⟩, ⟨1, 8, 598180⟩), (⟨1, 8, 561690000⟩, ⟨1, 8, 15979100⟩, ⟨1, 8, 935455⟩),
  (⟨1, 8, 569490496⟩, ⟨1, 8, 10150000⟩, ⟨1, 8, 403113⟩), (⟨1, 8, 571210000⟩, ⟨1, 8, 7784500⟩, ⟨1, 8, 456116⟩),
  (⟨1, 8, 574081600⟩, ⟨1, 8, 10260000⟩, ⟨1, 8, 336155⟩), (⟨1, 8, 580810000⟩, ⟨1, 8, 11293800⟩, ⟨1, 8, 661013⟩),
  (⟨1, 8, 590490000⟩, ⟨1, 8, 11988800⟩, ⟨1, 8, 702552⟩), (⟨1, 8, 600250000⟩, ⟨1, 8, 5867000⟩, ⟨1, 8, 344283⟩),
  (⟨1, 8, 610090000⟩, ⟨1, 8, 5323800⟩, ⟨1, 8, 312533⟩), (⟨1, 8, 620010000⟩, ⟨1, 8, 10564000⟩, ⟨1, 8, 618018⟩),
  (⟨1, 8, 625000000⟩, ⟨1, 8, 8810000⟩, ⟨1, 8, 1251719⟩), (⟨1, 8, 630010000⟩, ⟨1, 8, 7905700⟩, ⟨1, 8, 464013⟩),
  (⟨1, 8, 640090000⟩, ⟨1, 8, 9094500⟩, ⟨1, 8, 533096⟩), (⟨1, 8, 650250000⟩, ⟨1, 8, 10363700⟩, ⟨1, 8, 607289⟩),
  (⟨1, 8, 660490000⟩, ⟨1, 8, 5557100⟩, ⟨1, 8, 326492⟩), (⟨1, 8, 670810000⟩, ⟨1, 8, 8155400⟩, ⟨1, 8, 477424⟩),
  (⟨1, 8, 686440000⟩, ⟨1, 8, 6593700⟩, ⟨1, 8, 383693⟩), (⟨1, 8, 699285136⟩, ⟨1, 8, 5660000⟩, ⟨1, 8, 292062⟩),
  (⟨1, 8, 700343296⟩, ⟨1, 8, 5670000⟩, ⟨1, 8, 254558⟩), (⟨1, 8, 702250000⟩, ⟨1, 8, 6668584⟩, ⟨1, 8, 856918⟩),
  (⟨1, 8, 707560000⟩, ⟨1, 8, 4467100⟩, ⟨1, 8, 260048⟩), (⟨1, 8, 729000000⟩, ⟨1, 8, 4615300⟩, ⟨1, 8, 268534⟩),
  (⟨1, 8, 729000000⟩, ⟨1, 8, 3630000⟩, ⟨1, 8, 850000⟩), (⟨1, 8, 750760000⟩, ⟨1, 8, 3700000⟩, ⟨1, 8, 215277⟩),
  (⟨1, 8, 756250000⟩, ⟨1, 8, 5096544⟩, ⟨1, 8, 525671⟩), (⟨1, 8, 772840000⟩, ⟨1, 8, 3737900⟩, ⟨1, 8, 217503⟩),
  (⟨1, 8, 784000000⟩, ⟨1, 8, 3790000⟩, ⟨1, 8, 896270⟩), (⟨1, 8, 795240000⟩, ⟨1, 8, 3907700⟩, ⟨1, 8, 227299⟩),
  (⟨1, 8, 812250000⟩, ⟨1, 8, 4056592⟩, ⟨1, 8, 362945⟩), (⟨1, 8, 817960000⟩, ⟨1, 8, 2904000⟩, ⟨1, 8, 168939⟩),
  (⟨1, 8, 841000000⟩, ⟨1, 8, 3853200⟩, ⟨1, 8, 224190⟩), (⟨1, 8, 841000000⟩, ⟨1, 8, 3040000⟩, ⟨1, 8, 170000⟩),
  (⟨1, 8, 864360000⟩, ⟨1, 8, 4466900⟩, ⟨1, 8, 259771⟩), (⟨1, 8, 870250000⟩, ⟨1, 8, 3129005⟩, ⟨1, 8, 287136⟩),
  (⟨1, 8, 870250000⟩, ⟨1, 8, 2530000⟩, ⟨1, 8, 236008⟩), (⟨1, 8, 888040000⟩, ⟨1, 8, 2109700⟩, ⟨1, 8, 122734⟩),
  (⟨1, 8, 888636100⟩, ⟨1, 8, 2800000⟩, ⟨1, 8, 226274⟩), (⟨1, 8, 900000000⟩, ⟨1, 8, 2440000⟩, ⟨1, 8, 234307⟩),
  (⟨1, 8, 912040000⟩, ⟨1, 8, 2358100⟩, ⟨1, 8, 207844⟩), (⟨1, 8, 912040000⟩, ⟨1, 8, 2480000⟩, ⟨1, 8, 234307⟩),
  (⟨1, 8, 936360000⟩, ⟨1, 8, 3378000⟩, ⟨1, 8, 297726⟩), (⟨1, 8, 948640000⟩, ⟨1, 8, 2530000⟩, ⟨1, 8, 230868⟩),
  (⟨1, 8, 961000000⟩, ⟨1, 8, 1995149⟩, ⟨1, 8, 157240⟩), (⟨1, 8, 961000000⟩, ⟨1, 8, 2013400⟩, ⟨1, 8, 177445⟩),
  (⟨1, 8, 985960000⟩, ⟨1, 8, 3313000⟩, ⟨1, 8, 292002⟩), (⟨2, 8, 1011240000⟩, ⟨1, 8, 1784200⟩, ⟨1, 8, 157275⟩),
  (⟨2, 8, 1036840000⟩, ⟨1, 8, 2287200⟩, ⟨1, 8, 201584⟩), (⟨2, 8, 1062760000⟩, ⟨1, 8, 2439700⟩, ⟨1, 8, 215029⟩),
  (⟨2, 8, 1089000000⟩, ⟨1, 8, 1403912⟩, ⟨1, 8, 93436⟩), (⟨2, 8, 1089000000⟩, ⟨1, 8, 1005500⟩, ⟨1, 8, 88635⟩),
  (⟨2, 8, 1115560000⟩, ⟨1, 8, 3009800⟩, ⟨1, 8, 265232⟩), (⟨2, 8, 1142440000⟩, ⟨1, 8, 1214800⟩, ⟨1, 8, 107078⟩),
  (⟨2, 8, 1183360000⟩, ⟨1, 8, 1232100⟩, ⟨1, 8, 108555⟩), (⟨2, 8, 1225000000⟩, ⟨1, 8, 758233⟩, ⟨1, 8, 64547⟩),
  (⟨2, 8, 1239040000⟩, ⟨1, 8, 768400⟩, ⟨1, 8, 67700⟩), (⟨2, 8, 1296000000⟩, ⟨1, 8, 822900⟩, ⟨1, 8, 72503⟩),
  (⟨2, 8, 1354240000⟩, ⟨1, 8, 1102600⟩, ⟨1, 8, 97145⟩), (⟨2, 8, 1369000000⟩, ⟨1, 8, 472465⟩, ⟨1, 8, 48441⟩),
  (⟨2, 8, 1413760000⟩, ⟨1, 8, 535600⟩, ⟨1, 8, 47190⟩), (⟨2, 8, 1521000000⟩, ⟨1, 8, 410149⟩, ⟨1, 8, 36511⟩),
  (⟨2, 8, 1560250000⟩, ⟨1, 8, 249600⟩, ⟨1, 8, 21990⟩), (⟨2, 8, 1681000000⟩, ⟨1, 8, 239734⟩, ⟨1, 8, 24972⟩),
  (⟨2, 8, 1806250000⟩, ⟨1, 8, 389500⟩, ⟨1, 8, 98076⟩), (⟨2, 8, 1849000000⟩, ⟨1, 8, 170274⟩, ⟨1, 8, 19863⟩),
  (⟨2, 8, 2025000000⟩, ⟨1, 8, 80645⟩, ⟨1, 8, 12658⟩), (⟨2, 8, 2070250000⟩, ⟨1, 8, 157800⟩, ⟨1, 8, 39734⟩),
  (⟨2, 8, 2209000000⟩, ⟨1, 8, 66417⟩, ⟨1, 8, 10818⟩), (⟨2, 8, 2352250000⟩, ⟨1, 8, 115700⟩, ⟨1, 8, 29133⟩),
  (⟨2, 8, 2401000000⟩, ⟨1, 8, 52119⟩, ⟨1, 8, 8737⟩), (⟨2, 8, 2601000000⟩, ⟨1, 8, 35956⟩, ⟨1, 8, 7803⟩),
  (⟨2, 8, 2862250000⟩, ⟨1, 8, 33080⟩, ⟨1, 8, 4819⟩), (⟨2, 8, 3306250000⟩, ⟨1, 8, 14148⟩, ⟨1, 8, 2793⟩),
  (⟨2, 8, 3906250000⟩, ⟨1, 8, 4612⟩, ⟨1, 8, 2056⟩), (⟨2, 8, 4556250000⟩, ⟨1, 8, 4416⟩, ⟨1, 8, 1733⟩),
  (⟨2, 8, 5256250000⟩, ⟨1, 8, 1876⟩, ⟨1, 8, 1366⟩)]

set_option maxRecDepth 20000 in
theorem chargedKaon_table : chargedKaon = chargedKaonTable.map rowText := rfl

/-- The numerals of `chargedKaonCropped`. -/
def chargedKaonCroppedTable : List (Numeral × Numeral × Numeral) := [
  (⟨1, 8, 97515625⟩, ⟨1, 8, 3404300⟩, ⟨1, 8, 601017⟩), (⟨1, 8, 98505625⟩, ⟨1, 8, 52023100⟩, ⟨1, 8, 4201780⟩),
  (⟨1, 8, 99500625⟩, ⟨1, 8, 319217100⟩, ⟨1, 8, 18133795⟩), (⟨1, 8, 100100025⟩, ⟨1, 8, 776483700⟩, ⟨1, 8, 230041250⟩),
  (⟨1, 8, 100300225⟩, ⟨1, 8, 594779000⟩, ⟨1, 8, 192163599⟩), (⟨1, 8, 100500625⟩, ⟨2, 8, 1059019600⟩, ⟨1, 8, 325047382⟩),
  (⟨1, 8, 100701225⟩, ⟨1, 8, 963146100⟩, ⟨1, 8, 346848510⟩), (⟨1, 8, 100902025⟩, ⟨2, 8, 1394397800⟩, ⟨1, 8, 499331257⟩),
  (⟨1, 8, 101103025⟩, ⟨2, 8, 2033948600⟩, ⟨1, 8, 733220873⟩), (⟨1, 8, 101304225⟩, ⟨2, 8, 2908580000⟩, ⟨1, 8, 977752106⟩),
  (⟨1, 8, 101505625⟩, ⟨2, 8, 3013582700⟩, ⟨2, 8, 1111881320⟩), (⟨1, 8, 101707225⟩, ⟨2, 8, 4040223900⟩, ⟨2, 8, 1493412043⟩),
  (⟨1, 8, 101909025⟩, ⟨2, 8, 5232348900⟩, ⟨2, 8, 2005554588⟩), (⟨1, 8, 102111025⟩, ⟨2, 8, 6742238500⟩, ⟨2, 8, 2286936198⟩),
  (⟨1, 8, 102313225⟩, ⟨3, 8, 10499093100⟩, ⟨2, 8, 3492203160⟩), (⟨1, 8, 102515625⟩, ⟨3, 8, 13271958500⟩, ⟨2, 8, 5143558464⟩),
  (⟨1, 8, 102718225⟩, ⟨3, 8, 18232391500⟩, ⟨2, 8, 6933331978⟩), (⟨1, 8, 102921025⟩, ⟨3, 8, 27411727700⟩, ⟨3, 8, 11100203900⟩),
  (⟨1, 8, 103124025⟩, ⟨3, 8, 44448373400⟩, ⟨3, 8, 18613421243⟩), (⟨1, 8, 103327225⟩, ⟨3, 8, 69580222400⟩, ⟨3, 8, 31522035133⟩),
  (⟨1, 8, 103530625⟩, ⟨4, 8, 121107223200⟩, ⟨3, 8, 47520253507⟩), (⟨1, 8, 103734225⟩, ⟨4, 8, 181548296500⟩, ⟨3, 8, 83185676254⟩),
  (⟨1, 8, 103938025⟩, ⟨4, 8, 200906012900⟩, ⟨3, 8, 85327745166⟩), (⟨1, 8, 104142025⟩, ⟨4, 8, 151064307700⟩, ⟨3, 8, 58541439891⟩),
  (⟨1, 8, 104346225⟩, ⟨3, 8, 94983482000⟩, ⟨3, 8, 27054601061⟩), (⟨1, 8, 104550625⟩, ⟨3, 8, 67507793200⟩, ⟨3, 8, 17732128744⟩),
  (⟨1, 8, 104755225⟩, ⟨3, 8, 45507878000⟩, ⟨3, 8, 14983113634⟩), (⟨1, 8, 104960025⟩, ⟨3, 8, 36397603900⟩, ⟨3, 8, 11598006796⟩),
  (⟨1, 8, 105165025⟩, ⟨3, 8, 27869647100⟩, ⟨2, 8, 9611952679⟩), (⟨1, 8, 105370225⟩, ⟨3, 8, 23022938500⟩, ⟨2, 8, 7020686606⟩),
  (⟨1, 8, 105575625⟩, ⟨3, 8, 17182932400⟩, ⟨2, 8, 4538107430⟩), (⟨1, 8, 105781225⟩, ⟨3, 8, 15589575300⟩, ⟨2, 8, 5303857919⟩),
  (⟨1, 8, 105987025⟩, ⟨3, 8, 13372340400⟩, ⟨2, 8, 4595893068⟩), (⟨1, 8, 106193025⟩, ⟨3, 8, 12668812000⟩, ⟨2, 8, 3557154864⟩),
  (⟨1, 8, 106399225⟩, ⟨3, 8, 10137971900⟩, ⟨2, 8, 3385745512⟩), (⟨1, 8, 106605625⟩, ⟨2, 8, 9447374500⟩, ⟨2, 8, 3143213825⟩),
  (⟨1, 8, 106812225⟩, ⟨2, 8, 7897747600⟩, ⟨2, 8, 2654250078⟩), (⟨1, 8, 107019025⟩, ⟨2, 8, 7462534300⟩, ⟨2, 8, 2580461629⟩),
  (⟨1, 8, 107226025⟩, ⟨2, 8, 6520442900⟩, ⟨2, 8, 2152035016⟩), (⟨1, 8, 107433225⟩, ⟨2, 8, 6089312100⟩, ⟨2, 8, 1987710422⟩),
  (⟨1, 8, 107640625⟩, ⟨2, 8, 6481491100⟩, ⟨2, 8, 1751767403⟩), (⟨1, 8, 107848225⟩, ⟨2, 8, 5166602000⟩, ⟨2, 8, 1671021975⟩),
  (⟨1, 8, 108056025⟩, ⟨2, 8, 4579947800⟩, ⟨2, 8, 1421122116⟩), (⟨1, 8, 108680625⟩, ⟨2, 8, 4340466200⟩, ⟨1, 8, 254083281⟩),
  (⟨1, 8, 109620900⟩, ⟨2, 8, 3624300000⟩, ⟨1, 8, 75650843⟩), (⟨1, 8, 109725625⟩, ⟨2, 8, 3499577600⟩, ⟨1, 8, 216673674⟩),
  (⟨1, 8, 110775625⟩, ⟨2, 8, 2742988300⟩, ⟨1, 8, 166717058⟩), (⟨1, 8, 111830625⟩, ⟨2, 8, 2291198400⟩, ⟨1, 8, 141284669⟩),
  (⟨1, 8, 112890625⟩, ⟨2, 8, 2109121600⟩, ⟨1, 8, 124742102⟩), (⟨1, 8, 113955625⟩, ⟨2, 8, 1921957300⟩, ⟨1, 8, 111629538⟩),
  (⟨1, 8, 115025625⟩, ⟨2, 8, 1665471600⟩, ⟨1, 8, 95425844⟩), (⟨1, 8, 115562500⟩, ⟨2, 8, 1848300000⟩, ⟨1, 8, 38810437⟩),
  (⟨1, 8, 116100625⟩, ⟨2, 8, 1667369900⟩, ⟨1, 8, 97753736⟩), (⟨1, 8, 117180625⟩, ⟨2, 8, 1607066400⟩, ⟨1, 8, 91265263⟩),
  (⟨1, 8, 118265625⟩, ⟨2, 8, 1380417900⟩, ⟨1, 8, 77392187⟩), (⟨1, 8, 119355625⟩, ⟨2, 8, 1387000800⟩, ⟨1, 8, 80733003⟩),
  (⟨1, 8, 120340900⟩, ⟨2, 8, 1418400000⟩, ⟨1, 8, 30560105⟩), (⟨1, 8, 120450625⟩, ⟨2, 8, 1274152600⟩, ⟨1, 8, 74901952⟩),
  (⟨1, 8, 123210000⟩, ⟨2, 8, 1150355200⟩, ⟨1, 8, 23030746⟩), (⟨1, 8, 126337600⟩, ⟨2, 8, 1130700000⟩, ⟨1, 8, 24740655⟩),
  (⟨1, 8, 127690000⟩, ⟨1, 8, 976316100⟩, ⟨1, 8, 19573176⟩), (⟨1, 8, 132250000⟩, ⟨1, 8, 888818700⟩, ⟨1, 8, 17927034⟩),
  (⟨1, 8, 132480100⟩, ⟨1, 8, 941500000⟩, ⟨1, 8, 22748187⟩), (⟨1, 8, 136890000⟩, ⟨1, 8, 791164500⟩, ⟨1, 8, 16022790⟩),
  (⟨1, 8, 137827600⟩, ⟨1, 8, 914800000⟩, ⟨1, 8, 20833147⟩), (⟨1, 8, 141610000⟩, ⟨1, 8, 761148500⟩, ⟨1, 8, 15464118⟩),
  (⟨1, 8, 143041600⟩, ⟨1, 8, 773700000⟩, ⟨1, 8, 18333030⟩), (⟨1, 8, 146410000⟩, ⟨1, 8, 727651500⟩, ⟨1, 8, 18644768⟩),
  (⟨1, 8, 149572900⟩, ⟨1, 8, 726900000⟩, ⟨1, 8, 20357063⟩), (⟨1, 8, 151290000⟩, ⟨1, 8, 632698100⟩, ⟨1, 8, 16258027⟩),
  (⟨1, 8, 155002500⟩, ⟨1, 8, 662400000⟩, ⟨1, 8, 20840585⟩), (⟨1, 8, 156250000⟩, ⟨1, 8, 725538600⟩, ⟨1, 8, 18320289⟩),
  (⟨1, 8, 161290000⟩, ⟨1, 8, 624004600⟩, ⟨1, 8, 15760066⟩), (⟨1, 8, 162052900⟩, ⟨1, 8, 651800000⟩, ⟨1, 8, 19188799⟩),
  (⟨1, 8, 163072900⟩, ⟨1, 8, 635800000⟩, ⟨1, 8, 17660408⟩), (⟨1, 8, 166410000⟩, ⟨1, 8, 602362500⟩, ⟨1, 8, 15067220⟩),
  (⟨1, 8, 167702500⟩, ⟨1, 8, 596400000⟩, ⟨1, 8, 20103980⟩), (⟨1, 8, 171610000⟩, ⟨1, 8, 566600700⟩, ⟨1, 8, 20109765⟩),
  (⟨1, 8, 175032900⟩, ⟨1, 8, 571800000⟩, ⟨1, 8, 17217723⟩), (⟨1, 8, 176890000⟩, ⟨1, 8, 550158300⟩, ⟨1, 8, 19495915⟩),
  (⟨1, 8, 180633600⟩, ⟨1, 8, 516000000⟩, ⟨1, 8, 16329421⟩), (⟨1, 8, 182250000⟩, ⟨1, 8, 500275400⟩, ⟨1, 8, 17667569⟩),
  (⟨1, 8, 184144900⟩, ⟨1, 8, 533900000⟩, ⟨1, 8, 15101324⟩), (⟨1, 8, 187690000⟩, ⟨1, 8, 475062300⟩, ⟨1, 8, 16741646⟩),
  (⟨1, 8, 188787600⟩, ⟨1, 8, 530800000⟩, ⟨1, 8, 15035957⟩), (⟨1, 8, 193210000⟩, ⟨1, 8, 506118300⟩, ⟨1, 8, 17795314⟩),
  (⟨1, 8, 194323600⟩, ⟨1, 8, 500100000⟩, ⟨1, 8, 14713939⟩), (⟨1, 8, 198810000⟩, ⟨1, 8, 433638900⟩, ⟨1, 8, 15245632⟩),
  (⟨1, 8, 202492900⟩, ⟨1, 8, 457900000⟩, ⟨1, 8, 13641847⟩), (⟨1, 8, 204490000⟩, ⟨1, 8, 425246100⟩, ⟨1, 8, 14905311⟩),
  (⟨1, 8, 205922500⟩, ⟨1, 8, 411400000⟩, ⟨1, 8, 12067311⟩), (⟨1, 8, 208224900⟩, ⟨1, 8, 425400000⟩, ⟨1, 8, 14838464⟩),
  (⟨1, 8, 210250000⟩, ⟨1, 8, 410792000⟩, ⟨1, 8, 14397553⟩), (⟨1, 8, 216090000⟩, ⟨1, 8, 375451900⟩, ⟨1, 8, 13156464⟩),
  (⟨1, 8, 216384100⟩, ⟨1, 8, 409300000⟩, ⟨1, 8, 12432618⟩), (⟨1, 8, 222010000⟩, ⟨1, 8, 346905200⟩, ⟨1, 8, 12140972⟩),
  (⟨1, 8, 223203600⟩, ⟨1, 8, 364600000⟩, ⟨1, 8, 12042010⟩), (⟨1, 8, 228010000⟩, ⟨1, 8, 361009900⟩, ⟨1, 8, 13880134⟩),
  (⟨1, 8, 229522500⟩, ⟨1, 8, 357400000⟩, ⟨1, 8, 11151681⟩), (⟨1, 8, 231648400⟩, ⟨1, 8, 367900000⟩, ⟨1, 8, 13370116⟩),
  (⟨1, 8, 234090000⟩, ⟨1, 8, 322217900⟩, ⟨1, 8, 12403364⟩), (⟨1, 8, 238084900⟩, ⟨1, 8, 338200000⟩, ⟨1, 8, 13003461⟩),
  (⟨1, 8, 240250000⟩, ⟨1, 8, 306929400⟩, ⟨1, 8, 11825634⟩), (⟨1, 8, 246490000⟩, ⟨1, 8, 330625800⟩, ⟨1, 8, 12698479⟩),
  (⟨1, 8, 252810000⟩, ⟨1, 8, 323367500⟩, ⟨1, 8, 12404061⟩), (⟨1, 8, 254083600⟩, ⟨1, 8, 350700000⟩, ⟨1, 8, 15910060⟩),
  (⟨1, 8, 254402500⟩, ⟨1, 8, 330200000⟩, ⟨1, 8, 10547512⟩), (⟨1, 8, 259210000⟩, ⟨1, 8, 291618300⟩, ⟨1, 8, 11206815⟩),
  (⟨1, 8, 263412900⟩, ⟨1, 8, 302200000⟩, ⟨1, 8, 11069327⟩), (⟨1, 8, 265690000⟩, ⟨1, 8, 269412800⟩, ⟨1, 8, 10350060⟩),
  (⟨1, 8, 269944900⟩, ⟨1, 8, 281500000⟩, ⟨1, 8, 11294689⟩), (⟨1, 8, 272250000⟩, ⟨1, 8, 252584700⟩, ⟨1, 8, 9687547⟩),
  (⟨1, 8, 278556100⟩, ⟨1, 8, 215500000⟩, ⟨1, 8, 9613532⟩), (⟨1, 8, 278890000⟩, ⟨1, 8, 190007200⟩, ⟨1, 8, 7303633⟩),
  (⟨1, 8, 280227600⟩, ⟨1, 8, 177000000⟩, ⟨1, 8, 6931811⟩), (⟨1, 8, 286624900⟩, ⟨1, 8, 157000000⟩, ⟨1, 8, 8420214⟩),
  (⟨1, 8, 292410000⟩, ⟨1, 8, 84654200⟩, ⟨1, 8, 6010663⟩), (⟨1, 8, 294465600⟩, ⟨1, 8, 111500000⟩, ⟨1, 8, 7905694⟩),
  (⟨1, 8, 296872900⟩, ⟨1, 8, 96800000⟩, ⟨1, 8, 7184010⟩), (⟨1, 8, 299290000⟩, ⟨1, 8, 86782700⟩, ⟨1, 8, 6159194⟩),
  (⟨1, 8, 303456400⟩, ⟨1, 8, 63300000⟩, ⟨1, 8, 5263079⟩), (⟨1, 8, 306250000⟩, ⟨1, 8, 54285000⟩, ⟨1, 8, 3858108⟩),
  (⟨1, 8, 309056400⟩, ⟨1, 8, 50300000⟩, ⟨1, 8, 4049691⟩), (⟨1, 8, 313290000⟩, ⟨1, 8, 33428200⟩, ⟨1, 8, 2378164⟩),
  (⟨1, 8, 314707600⟩, ⟨1, 8, 31000000⟩, ⟨1, 8, 3710795⟩), (⟨1, 8, 321484900⟩, ⟨1, 8, 17000000⟩, ⟨1, 8, 3590265⟩),
  (⟨1, 8, 323280400⟩, ⟨1, 8, 18700000⟩, ⟨1, 8, 2968164⟩), (⟨1, 8, 327610000⟩, ⟨1, 8, 21616800⟩, ⟨1, 8, 1535532⟩),
  (⟨1, 8, 333427600⟩, ⟨1, 8, 21500000⟩, ⟨1, 8, 3605551⟩), (⟨1, 8, 334890000⟩, ⟨1, 8, 30143800⟩, ⟨1, 8, 2141819⟩),
  (⟨1, 8, 338560000⟩, ⟨1, 8, 29300000⟩, ⟨1, 8, 4332436⟩), (⟨1, 8, 341880100⟩, ⟨1, 8, 17100000⟩, ⟨1, 8, 4294182⟩),
  (⟨1, 8, 342250000⟩, ⟨1, 8, 20390600⟩, ⟨1, 8, 1450761⟩), (⟨1, 8, 349690000⟩, ⟨1, 8, 32505700⟩, ⟨1, 8, 2307061⟩),
  (⟨1, 8, 350064100⟩, ⟨1, 8, 29100000⟩, ⟨1, 8, 3981206⟩), (⟨1, 8, 351187600⟩, ⟨1, 8, 27600000⟩, ⟨1, 8, 3667424⟩),
  (⟨1, 8, 357210000⟩, ⟨1, 8, 23758700⟩, ⟨1, 8, 1688977⟩), (⟨1, 8, 358344900⟩, ⟨1, 8, 34500000⟩, ⟨1, 8, 4308132⟩),
  (⟨1, 8, 361380100⟩, ⟨1, 8, 34300000⟩, ⟨1, 8, 5069517⟩), (⟨1, 8, 362140900⟩, ⟨1, 8, 28700000⟩, ⟨1, 8, 3712142⟩),
  (⟨1, 8, 364810000⟩, ⟨1, 8, 33582800⟩, ⟨1, 8, 2387512⟩), (⟨1, 8, 370947600⟩, ⟨1, 8, 36700000⟩, ⟨1, 8, 4681880⟩),
  (⟨1, 8, 371332900⟩, ⟨1, 8, 31600000⟩, ⟨1, 8, 4427189⟩), (⟨1, 8, 372490000⟩, ⟨1, 8, 33024900⟩, ⟨1, 8, 2347389⟩),
  (⟨1, 8, 378302500⟩, ⟨1, 8, 26300000⟩, ⟨1, 8, 3716181⟩), (⟨1, 8, 380250000⟩, ⟨1, 8, 33111500⟩, ⟨1, 8, 2353258⟩),
  (⟨1, 8, 381420900⟩, ⟨1, 8, 35700000⟩, ⟨1, 8, 6281720⟩), (⟨1, 8, 386908900⟩, ⟨1, 8, 33100000⟩, ⟨1, 8, 4365776⟩),
  (⟨1, 8, 388090000⟩, ⟨1, 8, 34416000⟩, ⟨1, 8, 2446143⟩), (⟨1, 8, 391248400⟩, ⟨1, 8, 33200000⟩, ⟨1, 8, 5756735⟩),
  (⟨1, 8, 395612100⟩, ⟨1, 8, 34600000⟩, ⟨1, 8, 4838388⟩), (⟨1, 8, 396010000⟩, ⟨1, 8, 28873200⟩, ⟨1, 8, 2053666⟩),
  (⟨1, 8, 400000000⟩, ⟨1, 8, 35150000⟩, ⟨1, 8, 1217539⟩), (⟨1, 8, 402002500⟩, ⟨1, 8, 36700000⟩, ⟨1, 8, 5059644⟩),
  (⟨1, 8, 404010000⟩, ⟨1, 8, 37395700⟩, ⟨1, 8, 2653675⟩), (⟨1, 8, 412090000⟩, ⟨1, 8, 32172900⟩, ⟨1, 8, 2281719⟩),
  (⟨1, 8, 420250000⟩, ⟨1, 8, 29610000⟩, ⟨1, 8, 1509503⟩), (⟨1, 8, 428490000⟩, ⟨1, 8, 29156400⟩, ⟨1, 8, 2067063⟩),
  (⟨1, 8, 436810000⟩, ⟨1, 8, 15409600⟩, ⟨1, 8, 1097094⟩), (⟨1, 8, 441000000⟩, ⟨1, 8, 22060000⟩, ⟨1, 8, 806598⟩),
  (⟨1, 8, 445210000⟩, ⟨1, 8, 19066900⟩, ⟨1, 8, 1353837⟩), (⟨1, 8, 451562500⟩, ⟨1, 8, 19200000⟩, ⟨1, 8, 503289⟩),
  (⟨1, 8, 453690000⟩, ⟨1, 8, 22421100⟩, ⟨1, 8, 1590673⟩), (⟨1, 8, 462250000⟩, ⟨1, 8, 17170000⟩, ⟨1, 8, 1149478⟩),
  (⟨1, 8, 462250000⟩, ⟨1, 8, 14126700⟩, ⟨1, 8, 1001955⟩), (⟨1, 8, 473062500⟩, ⟨1, 8, 18420000⟩, ⟨1, 8, 732462⟩),
  (⟨1, 8, 479610000⟩, ⟨1, 8, 22012900⟩, ⟨1, 8, 1562045⟩), (⟨1, 8, 484000000⟩, ⟨1, 8, 23140000⟩, ⟨1, 8, 827587⟩),
  (⟨1, 8, 488410000⟩, ⟨1, 8, 23219200⟩, ⟨1, 8, 1645854⟩), (⟨1, 8, 497290000⟩, ⟨1, 8, 25413100⟩, ⟨1, 8, 1802387⟩),
  (⟨1, 8, 498360976⟩, ⟨1, 8, 25320000⟩, ⟨1, 8, 898053⟩), (⟨1, 8, 506250000⟩, ⟨1, 8, 31236100⟩, ⟨1, 8, 2210093⟩),
  (⟨1, 8, 515290000⟩, ⟨1, 8, 13028400⟩, ⟨1, 8, 922874⟩), (⟨1, 8, 524410000⟩, ⟨1, 8, 26799300⟩, ⟨1, 8, 1895831⟩),
  (⟨1, 8, 533332836⟩, ⟨1, 8, 18400000⟩, ⟨1, 8, 624820⟩), (⟨1, 8, 533610000⟩, ⟨1, 8, 21410900⟩, ⟨1, 8, 1254501⟩),
  (⟨1, 8, 542890000⟩, ⟨1, 8, 15052700⟩, ⟨1, 8, 883073⟩), (⟨1, 8, 552250000⟩, ⟨1, 8, 10188300⟩, ⟨1, 8, 598180⟩),
  (⟨1, 8, 561690000⟩, ⟨1, 8, 15979100⟩, ⟨1, 8, 935455⟩), (⟨1, 8, 569490496⟩, ⟨1, 8, 10150000⟩, ⟨1, 8, 403113⟩),
  (⟨1, 8, 571210000⟩, ⟨1, 8, 7784500⟩, ⟨1, 8, 456116⟩), (⟨1, 8, 574081600⟩, ⟨1, 8, 10260000⟩, ⟨1, 8, 336155⟩),
  (⟨1, 8, 580810000⟩, ⟨1, 8, 11293800⟩, ⟨1, 8, 661013⟩), (⟨1, 8, 590490000⟩, ⟨1, 8, 11988800⟩, ⟨1, 8, 702552⟩),
  (⟨1, 8, 600250000⟩, ⟨1, 8, 5867000⟩, ⟨1, 8, 344283⟩), (⟨1, 8, 610090000⟩, ⟨1, 8, 5323800⟩, ⟨1, 8, 312533⟩),
  (⟨1, 8, 620010000⟩, ⟨1, 8, 10564000⟩, ⟨1, 8, 618018⟩), (⟨1, 8, 625000000⟩, ⟨1, 8, 8810000⟩, ⟨1, 8, 1251719⟩),
  (⟨1, 8, 630010000⟩, ⟨1, 8, 7905700⟩, ⟨1, 8, 464013⟩), (⟨1, 8, 640090000⟩, ⟨1, 8, 9094500⟩, ⟨1, 8, 533096⟩),
  (⟨1, 8, 650250000⟩, ⟨1, 8, 10363700⟩, ⟨1, 8, 607289⟩), (⟨1, 8, 660490000⟩, ⟨1, 8, 5557100⟩, ⟨1, 8, 326492⟩),
  (⟨1, 8, 670810000⟩, ⟨1, 8, 8155400⟩, ⟨1, 8, 477424⟩), (⟨1, 8, 686440000⟩, ⟨1, 8, 6593700⟩, ⟨1, 8, 383693⟩),
  (⟨1, 8, 699285136⟩, ⟨1, 8, 5660000⟩, ⟨1, 8, 292062⟩), (⟨1, 8, 700343296⟩, ⟨1, 8, 5670000⟩, ⟨1, 8, 254558⟩),
  (⟨1, 8, 702250000⟩, ⟨1, 8, 6668584⟩, ⟨1, 8, 856918⟩), (⟨1, 8, 707560000⟩, ⟨1, 8, 4467100⟩, ⟨1, 8, 260048⟩),
  (⟨1, 8, 729000000⟩, ⟨1, 8, 4615300⟩, ⟨1, 8, 268534⟩), (⟨1, 8, 729000000⟩, ⟨1, 8, 3630000⟩, ⟨1, 8, 850000⟩),
  (⟨1, 8, 750760000⟩, ⟨1, 8, 3700000⟩, ⟨1, 8, 215277⟩), (⟨1, 8, 756250000⟩, ⟨1, 8, 5096544⟩, ⟨1, 8, 525671⟩),
  (⟨1, 8, 772840000⟩, ⟨1, 8, 3737900⟩, ⟨1, 8, 217503⟩), (⟨1, 8, 784000000⟩, ⟨1, 8, 3790000⟩, ⟨1, 8, 896270⟩),
  (⟨1, 8, 795240000⟩, ⟨1, 8, 3907700⟩, ⟨1, 8, 227299⟩), (⟨1, 8, 812250000⟩, ⟨1, 8, 4056592⟩, ⟨1, 8, 362945⟩),
  (⟨1, 8, 817960000⟩, ⟨1, 8, 2904000⟩, ⟨1, 8, 168939⟩), (⟨1, 8, 841000000⟩, ⟨1, 8, 3853200⟩, ⟨1, 8, 224190⟩),
  (⟨1, 8, 841000000⟩, ⟨1, 8, 3040000⟩, ⟨1, 8, 170000⟩), (⟨1, 8, 870250000⟩, ⟨1, 8, 3129005⟩, ⟨1, 8, 287136⟩),
  (⟨1, 8, 870250000⟩, ⟨1, 8, 2530000⟩, ⟨1, 8, 236008⟩), (⟨1, 8, 888040000⟩, ⟨1, 8, 2109700⟩, ⟨1, 8, 122734⟩),
  (⟨1, 8, 888636100⟩, ⟨1, 8, 2800000⟩, ⟨1, 8, 226274⟩), (⟨1, 8, 900000000⟩, ⟨1, 8, 2440000⟩, ⟨1, 8, 234307⟩),
  (⟨1, 8, 912040000⟩, ⟨1, 8, 2358100⟩, ⟨1, 8, 207844⟩), (⟨1, 8, 912040000⟩, ⟨1, 8, 2480000⟩, ⟨1, 8, 234307⟩),
  (⟨1, 8, 936360000⟩, ⟨1, 8, 3378000⟩, ⟨1, 8, 297726⟩), (⟨1, 8, 948640000⟩, ⟨1, 8, 2530000⟩, ⟨1, 8, 230868⟩),
  (⟨1, 8, 961000000⟩, ⟨1, 8, 1995149⟩, ⟨1, 8, 157240⟩), (⟨1, 8, 961000000⟩, ⟨1, 8, 2013400⟩, ⟨1, 8, 177445⟩),
  (⟨1, 8, 985960000⟩, ⟨1, 8, 3313000⟩, ⟨1, 8, 292002⟩), (⟨2, 8, 1011240000⟩, ⟨1, 8, 1784200⟩, ⟨1, 8, 157275⟩),
  (⟨2, 8, 1036840000⟩, ⟨1, 8, 2287200⟩, ⟨1, 8, 201584⟩), (⟨2, 8, 1062760000⟩, ⟨1, 8, 2439700⟩, ⟨1, 8, 215029⟩),
  (⟨2, 8, 1089000000⟩, ⟨1, 8, 1403912⟩, ⟨1, 8, 93436⟩), (⟨2, 8, 1089000000⟩, ⟨1, 8, 1005500⟩, ⟨1, 8, 88635⟩),
  (⟨2, 8, 1115560000⟩, ⟨1, 8, 3009800⟩, ⟨1, 8, 265232⟩), (⟨2, 8, 1142440000⟩, ⟨1, 8, 1214800⟩, ⟨1, 8, 107078⟩),
  (⟨2, 8, 1183360000⟩, ⟨1, 8, 1232100⟩, ⟨1, 8, 108555⟩), (⟨2, 8, 1225000000⟩, ⟨1, 8, 758233⟩, ⟨1, 8, 64547⟩),
  (⟨2, 8, 1239040000⟩, ⟨1, 8, 768400⟩, ⟨1, 8, 67700⟩), (⟨2, 8, 1296000000⟩, ⟨1, 8, 822900⟩, ⟨1, 8, 72503⟩),
  (⟨2, 8, 1354240000⟩, ⟨1, 8, 1102600⟩, ⟨1, 8, 97145⟩), (⟨2, 8, 1369000000⟩, ⟨1, 8, 472465⟩, ⟨1, 8, 48441⟩),
  (⟨2, 8, 1413760000⟩, ⟨1, 8, 535600⟩, ⟨1, 8, 47190⟩), (⟨2, 8, 1521000000⟩, ⟨1, 8, 410149⟩, ⟨1, 8, 36511⟩),
  (⟨2, 8, 1560250000⟩, ⟨1, 8, 249600⟩, ⟨1, 8, 21990⟩), (⟨2, 8, 1681000000⟩, ⟨1, 8, 239734⟩, ⟨1, 8, 24972⟩),
  (⟨2, 8, 1806250000⟩, ⟨1, 8, 389500⟩, ⟨1, 8, 98076⟩), (⟨2, 8, 1849000000⟩, ⟨1, 8, 170274⟩, ⟨1, 8, 19863⟩),
  (⟨2, 8, 2025000000⟩, ⟨1, 8, 80645⟩, ⟨1, 8, 12658⟩), (⟨2, 8, 2070250000⟩, ⟨1, 8, 157800⟩, ⟨1, 8, 39734⟩),
  (⟨2, 8, 2209000000⟩, ⟨1, 8, 66417⟩, ⟨1, 8, 10818⟩), (⟨2, 8, 2352250000⟩, ⟨1, 8, 115700⟩, ⟨1, 8, 29133⟩),
  (⟨2, 8, 2401000000⟩, ⟨1, 8, 52119⟩, ⟨1, 8, 8737⟩), (⟨2, 8, 2601000000⟩, ⟨1, 8, 35956⟩, ⟨1, 8, 7803⟩),
  (⟨2, 8, 2862250000⟩, ⟨1, 8, 33080⟩, ⟨1, 8, 4819⟩), (⟨2, 8, 3306250000⟩, ⟨1, 8, 14148⟩, ⟨1, 8, 2793⟩),
  (⟨2, 8, 3906250000⟩, ⟨1, 8, 4612⟩, ⟨1, 8, 2056⟩), (⟨2, 8, 4556250000⟩, ⟨1, 8, 4416⟩, ⟨1, 8, 1733⟩),
  (⟨2, 8, 5256250000⟩, ⟨1, 8, 1876⟩, ⟨1, 8, 1366⟩)]

set_option maxRecDepth 20000 in
theorem chargedKaonCropped_table : chargedKaonCropped = chargedKaonCroppedTable.map rowText := rfl

/-- The numerals of `chargedNewData2`. -/
def chargedNewData2Table : List (Numeral × Numeral × Numeral) := [
  (⟨1, 8, 97515625⟩, ⟨1, 8, 3404300⟩, ⟨1, 8, 5225675⟩), (⟨1, 8, 98505625⟩, ⟨1, 8, 52023100⟩, ⟨1, 8, 20090772⟩),
  (⟨1, 8, 99500625⟩, ⟨1, 8, 319217100⟩, ⟨1, 8, 41330177⟩), (⟨1, 8, 100100025⟩, ⟨1, 8, 776483700⟩, ⟨1, 8, 151775665⟩),
  (⟨1, 8, 100300225⟩, ⟨1, 8, 594779000⟩, ⟨1, 8, 138686541⟩), (⟨1, 8, 100500625⟩, ⟨2, 8, 1059019600⟩, ⟨1, 8, 180467580⟩),
  (⟨1, 8, 100701225⟩, ⟨1, 8, 963146100⟩, ⟨1, 8, 186381955⟩), (⟨1, 8, 100902025⟩, ⟨2, 8, 1394397800⟩, ⟨1, 8, 223720295⟩),
  (⟨1, 8, 101103025⟩, ⟨2, 8, 2033948600⟩, ⟨1, 8, 271258703⟩), (⟨1, 8, 101304225⟩, ⟨2, 8, 2908580000⟩, ⟨1, 8, 313552159⟩),
  (⟨1, 8, 101505625⟩, ⟨2, 8, 3013582700⟩, ⟨1, 8, 334322181⟩), (⟨1, 8, 101707225⟩, ⟨2, 8, 4040223900⟩, ⟨1, 8, 387817016⟩),
  (⟨1, 8, 101909025⟩, ⟨2, 8, 5232348900⟩, ⟨1, 8, 449833770⟩), (⟨1, 8, 102111025⟩, ⟨2, 8, 6742238500⟩, ⟨1, 8, 480623162⟩),
  (⟨1, 8, 102313225⟩, ⟨3, 8, 10499093100⟩, ⟨1, 8, 595695277⟩), (⟨1, 8, 102515625⟩, ⟨3, 8, 13271958500⟩, ⟨1, 8, 723462801⟩),
  (⟨1, 8, 102718225⟩, ⟨3, 8, 18232391500⟩, ⟨1, 8, 842876961⟩), (⟨1, 8, 102921025⟩, ⟨3, 8, 27411727700⟩, ⟨2, 8, 1071819779⟩),
  (⟨1, 8, 103124025⟩, ⟨3, 8, 44448373400⟩, ⟨2, 8, 1401244122⟩), (⟨1, 8, 103327225⟩, ⟨3, 8, 69580222400⟩, ⟨2, 8, 1844663640⟩),
  (⟨1, 8, 103530625⟩, ⟨4, 8, 121107223200⟩, ⟨2, 8, 2347671283⟩), (⟨1, 8, 103734225⟩, ⟨4, 8, 181548296500⟩, ⟨2, 8, 3166413707⟩),
  (⟨1, 8, 103938025⟩, ⟨4, 8, 200906012900⟩, ⟨2, 8, 3259444424⟩), (⟨1, 8, 104142025⟩, ⟨4, 8, 151064307700⟩, ⟨2, 8, 2652573153⟩),
  (⟨1, 8, 104346225⟩, ⟨3, 8, 94983482000⟩, ⟨2, 8, 1781092063⟩), (⟨1, 8, 104550625⟩, ⟨3, 8, 67507793200⟩, ⟨2, 8, 1417320404⟩),
  (⟨1, 8, 104755225⟩, ⟨3, 8, 45507878000⟩, ⟨2, 8, 1267009069⟩), (⟨1, 8, 104960025⟩, ⟨3, 8, 36397603900⟩, ⟨2, 8, 1108233483⟩),
  (⟨1, 8, 105165025⟩, ⟨3, 8, 27869647100⟩, ⟨2, 8, 1000625211⟩), (⟨1, 8, 105370225⟩, ⟨3, 8, 23022938500⟩, ⟨1, 8, 854020507⟩),
  (⟨1, 8, 105575625⟩, ⟨3, 8, 17182932400⟩, ⟨1, 8, 684797779⟩), (⟨1, 8, 105781225⟩, ⟨3, 8, 15589575300⟩, ⟨1, 8, 736794364⟩),
  (⟨1, 8, 105987025⟩, ⟨3, 8, 13372340400⟩, ⟨1, 8, 684659366⟩), (⟨1, 8, 106193025⟩, ⟨3, 8, 12668812000⟩, ⟨1, 8, 605927794⟩),
  (⟨1, 8, 106399225⟩, ⟨3, 8, 10137971900⟩, ⟨1, 8, 588124661⟩), (⟨1, 8, 106605625⟩, ⟨2, 8, 9447374500⟩, ⟨1, 8, 566274940⟩),
  (⟨1, 8, 106812225⟩, ⟨2, 8, 7897747600⟩, ⟨1, 8, 519467663⟩), (⟨1, 8, 107019025⟩, ⟨2, 8, 7462534300⟩, ⟨1, 8, 511851296⟩),
  (⟨1, 8, 107226025⟩, ⟨2, 8, 6520442900⟩, ⟨1, 8, 467123018⟩), (⟨1, 8, 107433225⟩, ⟨2, 8, 6089312100⟩, ⟨1, 8, 448756784⟩),
  (⟨1, 8, 107640625⟩, ⟨2, 8, 6481491100⟩, ⟨1, 8, 422048918⟩), (⟨1, 8, 107848225⟩, ⟨2, 8, 5166602000⟩, ⟨1, 8, 411063383⟩),
  (⟨1, 8, 108056025⟩, ⟨2, 8, 4579947800⟩, ⟨1, 8, 378912115⟩), (⟨1, 8, 108680625⟩, ⟨2, 8, 4340466200⟩, ⟨1, 8, 168540091⟩),
  (⟨1, 8, 109725625⟩, ⟨2, 8, 3499577600⟩, ⟨1, 8, 153404221⟩), (⟨1, 8, 110775625⟩, ⟨2, 8, 2742988300⟩, ⟨1, 8, 133541661⟩),
  (⟨1, 8, 111830625⟩, ⟨2, 8, 2291198400⟩, ⟨1, 8, 121964233⟩), (⟨1, 8, 112890625⟩, ⟨2, 8, 2109121600⟩, ⟨1, 8, 114277985⟩),
  (⟨1, 8, 113955625⟩, ⟨2, 8, 1921957300⟩, ⟨1, 8, 107747225⟩), (⟨1, 8, 115025625⟩, ⟨2, 8, 1665471600⟩, ⟨1, 8, 99146773⟩),
  (⟨1, 8, 116100625⟩, ⟨2, 8, 1667369900⟩, ⟨1, 8, 100357463⟩), (⟨1, 8, 117180625⟩, ⟨2, 8, 1607066400⟩, ⟨1, 8, 96851309⟩),
  (⟨1, 8, 118265625⟩, ⟨2, 8, 1380417900⟩, ⟨1, 8, 88791605⟩), (⟨1, 8, 119355625⟩, ⟨2, 8, 1387000800⟩, ⟨1, 8, 90727084⟩),
  (⟨1, 8, 120450625⟩, ⟨2, 8, 1274152600⟩, ⟨1, 8, 87212550⟩), (⟨1, 8, 123210000⟩, ⟨2, 8, 1150355200⟩, ⟨1, 8, 40949828⟩),
  (⟨1, 8, 127690000⟩, ⟨1, 8, 976316100⟩, ⟨1, 8, 37177308⟩), (⟨1, 8, 132250000⟩, ⟨1, 8, 888818700⟩, ⟨1, 8, 35440543⟩),
  (⟨1, 8, 136890000⟩, ⟨1, 8, 791164500⟩, ⟨1, 8, 33293268⟩), (⟨1, 8, 141610000⟩, ⟨1, 8, 761148500⟩, ⟨1, 8, 32689553⟩),
  (⟨1, 8, 146410000⟩, ⟨1, 8, 727651500⟩, ⟨1, 8, 34374174⟩), (⟨1, 8, 151290000⟩, ⟨1, 8, 632698100⟩, ⟨1, 8, 31731267⟩),
  (⟨1, 8, 156250000⟩, ⟨1, 8, 725538600⟩, ⟨1, 8, 33483939⟩), (⟨1, 8, 161290000⟩, ⟨1, 8, 624004600⟩, ⟨1, 8, 30553688⟩),
  (⟨1, 8, 166410000⟩, ⟨1, 8, 602362500⟩, ⟨1, 8, 29376224⟩), (⟨1, 8, 171610000⟩, ⟨1, 8, 566600700⟩, ⟨1, 8, 31551682⟩),
  (⟨1, 8, 176890000⟩, ⟨1, 8, 550158300⟩, ⟨1, 8, 30767290⟩), (⟨1, 8, 182250000⟩, ⟨1, 8, 500275400⟩, ⟨1, 8, 28504601⟩),
  (⟨1, 8, 187690000⟩, ⟨1, 8, 475062300⟩, ⟨1, 8, 27312164⟩), (⟨1, 8, 193210000⟩, ⟨1, 8, 506118300⟩, ⟨1, 8, 28256919⟩),
  (⟨1, 8, 198810000⟩, ⟨1, 8, 433638900⟩, ⟨1, 8, 25455192⟩), (⟨1, 8, 204490000⟩, ⟨1, 8, 425246100⟩, ⟨1, 8, 24803407⟩),
  (⟨1, 8, 210250000⟩, ⟨1, 8, 410792000⟩, ⟨1, 8, 24231064⟩), (⟨1, 8, 216090000⟩, ⟨1, 8, 375451900⟩, ⟨1, 8, 22817988⟩),
  (⟨1, 8, 222010000⟩, ⟨1, 8, 346905200⟩, ⟨1, 8, 21546434⟩), (⟨1, 8, 228010000⟩, ⟨1, 8, 361009900⟩, ⟨1, 8, 22759229⟩),
  (⟨1, 8, 234090000⟩, ⟨1, 8, 322217900⟩, ⟨1, 8, 21235348⟩), (⟨1, 8, 240250000⟩, ⟨1, 8, 306929400⟩, ⟨1, 8, 20672405⟩),
  (⟨1, 8, 246490000⟩, ⟨1, 8, 330625800⟩, ⟨1, 8, 21326493⟩), (⟨1, 8, 252810000⟩, ⟨1, 8, 323367500⟩, ⟨1, 8, 20855127⟩),
  (⟨1, 8, 259210000⟩, ⟨1, 8, 291618300⟩, ⟨1, 8, 19699035⟩), (⟨1, 8, 265690000⟩, ⟨1, 8, 269412800⟩, ⟨1, 8, 18675169⟩),
  (⟨1, 8, 272250000⟩, ⟨1, 8, 252584700⟩, ⟨1, 8, 17727836⟩), (⟨1, 8, 278890000⟩, ⟨1, 8, 190007200⟩, ⟨1, 8, 15056087⟩),
  (⟨1, 8, 285610000⟩, ⟨1, 8, 118224000⟩, ⟨1, 8, 11550952⟩), (⟨1, 8, 292410000⟩, ⟨1, 8, 84654200⟩, ⟨1, 8, 10660985⟩),
  (⟨1, 8, 299290000⟩, ⟨1, 8, 86782700⟩, ⟨1, 8, 10742750⟩), (⟨1, 8, 306250000⟩, ⟨1, 8, 54285000⟩, ⟨1, 8, 8216386⟩),
  (⟨1, 8, 313290000⟩, ⟨1, 8, 33428200⟩, ⟨1, 8, 6309250⟩), (⟨1, 8, 320410000⟩, ⟨1, 8, 13642900⟩, ⟨1, 8, 4272338⟩),
  (⟨1, 8, 327610000⟩, ⟨1, 8, 21616800⟩, ⟨1, 8, 4773793⟩), (⟨1, 8, 334890000⟩, ⟨1, 8, 30143800⟩, ⟨1, 8, 5786421⟩),
  (⟨1, 8, 342250000⟩, ⟨1, 8, 20390600⟩, ⟨1, 8, 4800977⟩), (⟨1, 8, 349690000⟩, ⟨1, 8, 32505700⟩, ⟨1, 8, 5875381⟩),
  (⟨1, 8, 357210000⟩, ⟨1, 8, 23758700⟩, ⟨1, 8, 5123663⟩), (⟨1, 8, 364810000⟩, ⟨1, 8, 33582800⟩, ⟨1, 8, 6233069⟩),
  (⟨1, 8, 372490000⟩, ⟨1, 8, 33024900⟩, ⟨1, 8, 6146743⟩), (⟨1, 8, 380250000⟩, ⟨1, 8, 33111500⟩, ⟨1, 8, 6139028⟩),
  (⟨1, 8, 388090000⟩, ⟨1, 8, 34416000⟩, ⟨1, 8, 6286604⟩), (⟨1, 8, 396010000⟩, ⟨1, 8, 28873200⟩, ⟨1, 8, 5781061⟩),
  (⟨1, 1, 40⟩, ⟨1, 4, 3515⟩, ⟨1, 18, 12175385004179539⟩), (⟨1, 4, 42025⟩, ⟨1, 4, 2961⟩, ⟨1, 18, 15095032295427527⟩),
  (⟨1, 2, 441⟩, ⟨1, 4, 2206⟩, ⟨1, 18, 8065977932030313⟩), (⟨1, 6, 4515625⟩, ⟨1, 3, 192⟩, ⟨1, 18, 5032891812864647⟩),
  (⟨1, 4, 46225⟩, ⟨1, 4, 1717⟩, ⟨1, 18, 11494781424629176⟩), (⟨1, 6, 4730625⟩, ⟨1, 4, 1842⟩, ⟨1, 18, 7324616030891995⟩),
  (⟨1, 2, 484⟩, ⟨1, 4, 2314⟩, ⟨1, 18, 8275868534480233⟩), (⟨1, 8, 498360976⟩, ⟨1, 4, 2532⟩, ⟨1, 18, 8980534505250787⟩),
  (⟨1, 8, 533332836⟩, ⟨1, 3, 184⟩, ⟨1, 19, 62481997407253225⟩), (⟨1, 8, 569490496⟩, ⟨1, 4, 1015⟩, ⟨1, 18, 4031128874149275⟩),
  (⟨1, 6, 5740816⟩, ⟨1, 4, 1026⟩, ⟨1, 18, 3361547262794322⟩), (⟨1, 2, 625⟩, ⟨1, 4, 881⟩, ⟨1, 18, 12517188182655082⟩),
  (⟨1, 8, 699285136⟩, ⟨1, 4, 566⟩, ⟨1, 19, 29206163733020464⟩), (⟨1, 8, 700343296⟩, ⟨1, 4, 567⟩, ⟨1, 18, 2545584412271571⟩),
  (⟨1, 2, 729⟩, ⟨1, 4, 363⟩, ⟨1, 18, 8499999999999999⟩), (⟨1, 2, 784⟩, ⟨1, 4, 379⟩, ⟨1, 18, 8962700485902673⟩),
  (⟨1, 2, 841⟩, ⟨1, 4, 304⟩, ⟨1, 19, 17000000000000001⟩), (⟨1, 4, 87025⟩, ⟨1, 4, 253⟩, ⟨1, 18, 2360084744241189⟩),
  (⟨1, 6, 8886361⟩, ⟨1, 3, 28⟩, ⟨1, 18, 2262741699796952⟩), (⟨1, 1, 90⟩, ⟨1, 4, 244⟩, ⟨1, 18, 2343074902771996⟩),
  (⟨1, 4, 91204⟩, ⟨1, 4, 248⟩, ⟨1, 18, 2343074902771996⟩), (⟨1, 4, 94864⟩, ⟨1, 4, 253⟩, ⟨1, 18, 2308679276123039⟩),
  (⟨1, 8, 961000000⟩, ⟨1, 8, 1995149⟩, ⟨1, 8, 157240⟩), (⟨2, 8, 1089000000⟩, ⟨1, 8, 1403912⟩, ⟨1, 8, 93436⟩),
  (⟨2, 8, 1225000000⟩, ⟨1, 8, 758233⟩, ⟨1, 8, 64547⟩), (⟨2, 8, 1369000000⟩, ⟨1, 8, 472465⟩, ⟨1, 8, 48441⟩),
  (⟨2, 8, 1521000000⟩, ⟨1, 8, 410149⟩, ⟨1, 8, 36511⟩), (⟨2, 8, 1681000000⟩, ⟨1, 8, 239734⟩, ⟨1, 8, 24972⟩),
  (⟨2, 8, 1849000000⟩, ⟨1, 8, 170274⟩, ⟨1, 8, 19863⟩), (⟨2, 8, 2025000000⟩, ⟨1, 8, 80645⟩, ⟨1, 8, 12658⟩),
  (⟨2, 8, 2209000000⟩, ⟨1, 8, 66417⟩, ⟨1, 8, 10818⟩), (⟨2, 8, 2401000000⟩, ⟨1, 8, 52119⟩, ⟨1, 8, 8737⟩),
  (⟨2, 8, 2601000000⟩, ⟨1, 8, 35956⟩, ⟨1, 8, 7803⟩), (⟨2, 8, 2862250000⟩, ⟨1, 8, 33080⟩, ⟨1, 8, 4819⟩),
  (⟨2, 8, 3306250000⟩, ⟨1, 8, 14148⟩, ⟨1, 8, 2793⟩), (⟨2, 8, 3906250000⟩, ⟨1, 8, 4612⟩, ⟨1, 8, 2056⟩),
  (⟨2, 8, 4556250000⟩, ⟨1, 8, 4416⟩, ⟨1, 8, 1733⟩), (⟨2, 8, 5256250000⟩, ⟨1, 8, 1876⟩, ⟨1, 8, 1366⟩)]

set_option maxRecDepth 20000 in
theorem chargedNewData2_table : chargedNewData2 = chargedNewData2Table.map rowText := rfl

/-- The numerals of `neutralKaon`. -/
def neutralKaonTable : List (Numeral × Numeral × Numeral) := [
  (⟨1, 4, 10081⟩, ⟨1, 4, 68700⟩, ⟨1, 4, 4378⟩), (⟨1, 4, 10084⟩, ⟨2, 4, 123200⟩, ⟨1, 4, 17724⟩),
  (⟨1, 4, 10085⟩, ⟨2, 4, 184000⟩, ⟨1, 4, 97950⟩), (⟨1, 4, 10093⟩, ⟨2, 4, 135100⟩, ⟨1, 4, 45758⟩),
  (⟨1, 4, 10206⟩, ⟨2, 4, 428900⟩, ⟨1, 4, 52905⟩), (⟨1, 4, 10210⟩, ⟨2, 4, 421600⟩, ⟨1, 4, 8926⟩),
  (⟨1, 4, 10218⟩, ⟨2, 4, 539700⟩, ⟨1, 4, 77247⟩), (⟨1, 4, 10227⟩, ⟨2, 4, 541400⟩, ⟨1, 4, 36771⟩),
  (⟨1, 4, 10227⟩, ⟨2, 4, 578700⟩, ⟨1, 4, 70886⟩), (⟨1, 4, 10261⟩, ⟨2, 4, 967400⟩, ⟨1, 4, 20080⟩),
  (⟨1, 4, 10304⟩, ⟨3, 4, 2195300⟩, ⟨1, 4, 63887⟩), (⟨1, 4, 10321⟩, ⟨3, 4, 3707800⟩, ⟨2, 4, 293840⟩),
  (⟨1, 4, 10322⟩, ⟨3, 4, 3785000⟩, ⟨2, 4, 312203⟩), (⟨1, 4, 10325⟩, ⟨3, 4, 3663300⟩, ⟨1, 4, 73871⟩),
  (⟨1, 4, 10330⟩, ⟨3, 4, 4335000⟩, ⟨2, 4, 389829⟩), (⟨1, 4, 10341⟩, ⟨3, 4, 6115900⟩, ⟨2, 4, 478922⟩),
  (⟨1, 4, 10342⟩, ⟨3, 4, 6564000⟩, ⟨2, 4, 510251⟩), (⟨1, 4, 10345⟩, ⟨3, 4, 6583100⟩, ⟨2, 4, 197556⟩),
  (⟨1, 4, 10346⟩, ⟨3, 4, 6281500⟩, ⟨2, 4, 116852⟩), (⟨1, 4, 10346⟩, ⟨3, 4, 6247600⟩, ⟨2, 4, 149759⟩),
  (⟨1, 4, 10347⟩, ⟨3, 4, 6554400⟩, ⟨2, 4, 512167⟩), (⟨1, 4, 10361⟩, ⟨4, 4, 10061400⟩, ⟨2, 4, 558535⟩),
  (⟨1, 4, 10362⟩, ⟨4, 4, 10783800⟩, ⟨2, 4, 584399⟩), (⟨1, 4, 10364⟩, ⟨3, 4, 9966200⟩, ⟨2, 4, 184427⟩),
  (⟨1, 4, 10364⟩, ⟨3, 4, 9995300⟩, ⟨2, 4, 577083⟩), (⟨1, 4, 10366⟩, ⟨4, 4, 10696600⟩, ⟨2, 4, 414785⟩),
  (⟨1, 4, 10379⟩, ⟨4, 4, 13447500⟩, ⟨2, 4, 329288⟩), (⟨1, 4, 10383⟩, ⟨4, 4, 12774700⟩, ⟨2, 4, 388722⟩),
  (⟨1, 4, 10384⟩, ⟨4, 4, 13223600⟩, ⟨2, 4, 335836⟩), (⟨1, 4, 10384⟩, ⟨4, 4, 13421000⟩, ⟨2, 4, 338313⟩),
  (⟨1, 4, 10386⟩, ⟨4, 4, 14136500⟩, ⟨2, 4, 261481⟩), (⟨1, 4, 10388⟩, ⟨4, 4, 12917300⟩, ⟨2, 4, 436378⟩),
  (⟨1, 4, 10388⟩, ⟨4, 4, 14330500⟩, ⟨2, 4, 298543⟩), (⟨1, 4, 10392⟩, ⟨4, 4, 14348400⟩, ⟨2, 4, 317112⟩),
  (⟨1, 4, 10397⟩, ⟨4, 4, 12193700⟩, ⟨2, 4, 467653⟩), (⟨1, 4, 10402⟩, ⟨4, 4, 13419100⟩, ⟨2, 4, 246151⟩),
  (⟨1, 4, 10403⟩, ⟨4, 4, 11279100⟩, ⟨2, 4, 486849⟩), (⟨1, 4, 10404⟩, ⟨4, 4, 11899200⟩, ⟨2, 4, 327139⟩),
  (⟨1, 4, 10404⟩, ⟨4, 4, 11504100⟩, ⟨2, 4, 491945⟩), (⟨1, 4, 10407⟩, ⟨4, 4, 11936700⟩, ⟨2, 4, 424099⟩),
  (⟨1, 4, 10418⟩, ⟨3, 4, 8663900⟩, ⟨2, 4, 453296⟩), (⟨1, 4, 10422⟩, ⟨3, 4, 7702400⟩, ⟨2, 4, 414714⟩),
  (⟨1, 4, 10424⟩, ⟨3, 4, 8114700⟩, ⟨2, 4, 427944⟩), (⟨1, 4, 10429⟩, ⟨3, 4, 8332000⟩, ⟨2, 4, 157747⟩),
  (⟨1, 4, 10431⟩, ⟨3, 4, 8075400⟩, ⟨2, 4, 178498⟩), (⟨1, 4, 10437⟩, ⟨3, 4, 5583900⟩, ⟨2, 4, 325643⟩),
  (⟨1, 4, 10440⟩, ⟨3, 4, 5225900⟩, ⟨2, 4, 330851⟩), (⟨1, 4, 10442⟩, ⟨3, 4, 5368700⟩, ⟨2, 4, 305931⟩),
  (⟨1, 4, 10442⟩, ⟨3, 4, 5350400⟩, ⟨2, 4, 359013⟩), (⟨1, 4, 10446⟩, ⟨3, 4, 5829300⟩, ⟨2, 4, 112400⟩),
  (⟨1, 4, 10457⟩, ⟨3, 4, 3719800⟩, ⟨2, 4, 245968⟩), (⟨1, 4, 10459⟩, ⟨3, 4, 3643800⟩, ⟨2, 4, 275650⟩),
  (⟨1, 4, 10460⟩, ⟨3, 4, 4437100⟩, ⟨1, 4, 91090⟩), (⟨1, 4, 10471⟩, ⟨3, 4, 3777700⟩, ⟨1, 4, 86275⟩),
  (⟨1, 4, 10485⟩, ⟨3, 4, 2580700⟩, ⟨2, 4, 138815⟩), (⟨1, 4, 10513⟩, ⟨3, 4, 1992600⟩, ⟨1, 4, 61290⟩),
  (⟨1, 4, 10562⟩, ⟨3, 4, 1154600⟩, ⟨1, 4, 96321⟩), (⟨1, 4, 10567⟩, ⟨3, 4, 1159300⟩, ⟨1, 4, 26916⟩),
  (⟨1, 4, 10575⟩, ⟨2, 4, 935800⟩, ⟨1, 4, 90509⟩), (⟨1, 4, 10576⟩, ⟨2, 4, 937500⟩, ⟨1, 4, 78632⟩),
  (⟨1, 4, 10590⟩, ⟨2, 4, 969600⟩, ⟨1, 4, 34707⟩), (⟨1, 4, 10684⟩, ⟨2, 4, 616900⟩, ⟨1, 4, 80387⟩),
  (⟨1, 4, 10690⟩, ⟨2, 4, 501200⟩, ⟨1, 4, 15497⟩), (⟨1, 4, 10693⟩, ⟨2, 4, 503100⟩, ⟨1, 4, 72903⟩),
  (⟨1, 4, 10805⟩, ⟨2, 4, 356100⟩, ⟨1, 4, 58812⟩), (⟨1, 4, 10816⟩, ⟨2, 4, 273000⟩, ⟨1, 4, 19698⟩),
  (⟨1, 4, 10817⟩, ⟨2, 4, 312700⟩, ⟨1, 4, 11562⟩), (⟨1, 4, 11022⟩, ⟨2, 4, 169300⟩, ⟨1, 4, 5855⟩),
  (⟨1, 4, 11025⟩, ⟨2, 4, 155000⟩, ⟨1, 4, 13000⟩), (⟨1, 4, 11025⟩, ⟨2, 4, 166500⟩, ⟨1, 4, 20975⟩),
  (⟨1, 4, 11043⟩, ⟨2, 4, 174700⟩, ⟨1, 4, 9912⟩), (⟨1, 4, 11235⟩, ⟨2, 4, 120900⟩, ⟨1, 4, 7426⟩),
  (⟨1, 4, 11236⟩, ⟨2, 4, 103000⟩, ⟨1, 4, 5831⟩), (⟨1, 4, 11236⟩, ⟨2, 4, 111000⟩, ⟨1, 4, 11459⟩),
  (⟨1, 4, 11449⟩, ⟨1, 4, 72000⟩, ⟨1, 4, 8246⟩), (⟨1, 4, 11449⟩, ⟨1, 4, 68200⟩, ⟨1, 4, 8654⟩), (⟨1, 4, 11664⟩, ⟨1, 4, 64000⟩, ⟨1, 4, 3606⟩),
  (⟨1, 4, 11664⟩, ⟨1, 4, 50800⟩, ⟨1, 4, 8956⟩), (⟨1, 4, 11664⟩, ⟨1, 4, 68600⟩, ⟨1, 4, 4738⟩), (⟨1, 4, 11881⟩, ⟨1, 4, 52000⟩, ⟨1, 4, 8246⟩),
  (⟨1, 4, 11881⟩, ⟨1, 4, 49700⟩, ⟨1, 4, 7400⟩), (⟨1, 4, 12100⟩, ⟨1, 4, 40000⟩, ⟨1, 4, 3162⟩), (⟨1, 4, 12100⟩, ⟨1, 4, 41900⟩, ⟨1, 4, 8052⟩),
  (⟨1, 4, 12321⟩, ⟨1, 4, 27500⟩, ⟨1, 4, 6549⟩), (⟨1, 4, 12321⟩, ⟨1, 4, 34400⟩, ⟨1, 4, 6803⟩), (⟨1, 4, 12544⟩, ⟨1, 4, 27100⟩, ⟨1, 4, 7052⟩),
  (⟨1, 4, 12544⟩, ⟨1, 4, 28600⟩, ⟨1, 4, 3113⟩), (⟨1, 4, 12656⟩, ⟨1, 4, 28100⟩, ⟨1, 4, 3132⟩), (⟨1, 4, 12769⟩, ⟨1, 4, 21500⟩, ⟨1, 4, 5977⟩),
  (⟨1, 4, 12996⟩, ⟨1, 4, 27500⟩, ⟨1, 4, 5970⟩), (⟨1, 4, 13110⟩, ⟨1, 4, 22200⟩, ⟨1, 4, 3081⟩), (⟨1, 4, 13225⟩, ⟨1, 4, 27500⟩, ⟨1, 4, 6878⟩),
  (⟨1, 4, 13456⟩, ⟨1, 4, 17400⟩, ⟨1, 4, 2943⟩), (⟨1, 4, 13456⟩, ⟨1, 4, 15200⟩, ⟨1, 4, 4111⟩), (⟨1, 4, 13456⟩, ⟨1, 4, 17800⟩, ⟨1, 4, 2455⟩),
  (⟨1, 4, 13689⟩, ⟨1, 4, 20000⟩, ⟨1, 4, 5488⟩), (⟨1, 4, 13924⟩, ⟨1, 4, 14000⟩, ⟨1, 4, 3985⟩), (⟨1, 4, 14042⟩, ⟨1, 4, 10400⟩, ⟨1, 4, 1825⟩),
  (⟨1, 4, 14161⟩, ⟨1, 4, 17200⟩, ⟨1, 4, 4144⟩), (⟨1, 4, 14400⟩, ⟨1, 4, 14800⟩, ⟨1, 4, 2340⟩), (⟨1, 4, 14520⟩, ⟨1, 4, 8000⟩, ⟨1, 4, 1628⟩),
  (⟨1, 4, 14520⟩, ⟨1, 4, 8200⟩, ⟨1, 4, 2309⟩), (⟨1, 4, 15006⟩, ⟨1, 4, 7700⟩, ⟨1, 4, 1811⟩), (⟨1, 4, 15006⟩, ⟨1, 4, 11200⟩, ⟨1, 4, 2504⟩),
  (⟨1, 4, 15376⟩, ⟨1, 4, 8700⟩, ⟨1, 4, 1818⟩), (⟨1, 4, 15500⟩, ⟨1, 4, 6200⟩, ⟨1, 4, 1513⟩), (⟨1, 4, 15650⟩, ⟨1, 4, 5500⟩, ⟨1, 4, 1487⟩),
  (⟨1, 4, 16002⟩, ⟨1, 4, 6600⟩, ⟨1, 4, 2110⟩), (⟨1, 4, 16256⟩, ⟨1, 4, 5300⟩, ⟨1, 4, 1629⟩), (⟨1, 4, 16384⟩, ⟨1, 4, 5400⟩, ⟨1, 4, 1409⟩),
  (⟨1, 4, 16512⟩, ⟨1, 4, 6800⟩, ⟨1, 4, 1960⟩), (⟨1, 4, 16796⟩, ⟨1, 4, 4800⟩, ⟨1, 4, 1393⟩), (⟨1, 4, 17030⟩, ⟨1, 4, 4300⟩, ⟨1, 4, 1653⟩),
  (⟨1, 4, 17424⟩, ⟨1, 4, 5400⟩, ⟨1, 4, 1508⟩), (⟨1, 4, 17556⟩, ⟨1, 4, 1600⟩, ⟨1, 4, 873⟩), (⟨1, 4, 17556⟩, ⟨1, 4, 400⟩, ⟨1, 4, 955⟩),
  (⟨1, 4, 18090⟩, ⟨1, 4, 3300⟩, ⟨1, 4, 1304⟩), (⟨1, 4, 18496⟩, ⟨1, 4, 2900⟩, ⟨1, 4, 1404⟩), (⟨1, 4, 18496⟩, ⟨1, 4, 4000⟩, ⟨1, 4, 1305⟩),
  (⟨1, 4, 18714⟩, ⟨1, 4, 2400⟩, ⟨1, 4, 776⟩), (⟨1, 4, 18906⟩, ⟨1, 4, 2800⟩, ⟨1, 4, 1254⟩), (⟨1, 4, 19600⟩, ⟨1, 4, 2200⟩, ⟨1, 4, 1102⟩),
  (⟨1, 4, 20736⟩, ⟨1, 4, 3200⟩, ⟨1, 4, 1204⟩), (⟨1, 4, 21904⟩, ⟨1, 4, 3600⟩, ⟨1, 4, 1105⟩), (⟨1, 4, 23104⟩, ⟨1, 4, 6600⟩, ⟨1, 4, 1314⟩),
  (⟨1, 4, 24336⟩, ⟨1, 4, 6700⟩, ⟨1, 4, 1314⟩), (⟨1, 4, 25600⟩, ⟨1, 4, 8400⟩, ⟨1, 4, 1224⟩), (⟨1, 4, 26896⟩, ⟨1, 4, 8300⟩, ⟨1, 4, 1322⟩),
  (⟨1, 4, 28224⟩, ⟨1, 4, 5100⟩, ⟨1, 4, 1110⟩), (⟨1, 4, 29584⟩, ⟨1, 4, 2600⟩, ⟨1, 4, 1103⟩), (⟨1, 4, 30976⟩, ⟨1, 4, 1100⟩, ⟨1, 4, 701⟩),
  (⟨1, 4, 32400⟩, ⟨1, 4, 300⟩, ⟨1, 4, 500⟩), (⟨1, 4, 33856⟩, ⟨1, 4, 400⟩, ⟨1, 4, 400⟩), (⟨1, 4, 35344⟩, ⟨1, 4, 200⟩, ⟨1, 4, 400⟩),
  (⟨1, 4, 36864⟩, ⟨1, 4, 700⟩, ⟨1, 4, 500⟩), (⟨1, 4, 38416⟩, ⟨1, 4, 900⟩, ⟨1, 4, 501⟩), (⟨1, 4, 40000⟩, ⟨1, 4, 200⟩, ⟨1, 4, 300⟩),
  (⟨1, 4, 41616⟩, ⟨1, 4, 200⟩, ⟨1, 4, 300⟩), (⟨1, 4, 43264⟩, ⟨1, 4, 0⟩, ⟨1, 4, 300⟩), (⟨1, 4, 44944⟩, ⟨1, 4, 100⟩, ⟨1, 4, 200⟩),
  (⟨1, 4, 46656⟩, ⟨1, 4, 200⟩, ⟨1, 4, 300⟩)]

set_option maxRecDepth 20000 in
theorem neutralKaon_table : neutralKaon = neutralKaonTable.map rowText := rfl

/-- The numerals of `neutralKaonCropped`. -/
def neutralKaonCroppedTable : List (Numeral × Numeral × Numeral) := [
  (⟨1, 4, 10081⟩, ⟨1, 4, 68700⟩, ⟨1, 4, 4378⟩), (⟨1, 4, 10084⟩, ⟨2, 4, 123200⟩, ⟨1, 4, 17724⟩),
  (⟨1, 4, 10085⟩, ⟨2, 4, 184000⟩, ⟨1, 4, 97950⟩), (⟨1, 4, 10093⟩, ⟨2, 4, 135100⟩, ⟨1, 4, 45758⟩),
  (⟨1, 4, 10206⟩, ⟨2, 4, 428900⟩, ⟨1, 4, 52905⟩), (⟨1, 4, 10210⟩, ⟨2, 4, 421600⟩, ⟨1, 4, 8926⟩),
  (⟨1, 4, 10218⟩, ⟨2, 4, 539700⟩, ⟨1, 4, 77247⟩), (⟨1, 4, 10227⟩, ⟨2, 4, 541400⟩, ⟨1, 4, 36771⟩),
  (⟨1, 4, 10227⟩, ⟨2, 4, 578700⟩, ⟨1, 4, 70886⟩), (⟨1, 4, 10261⟩, ⟨2, 4, 967400⟩, ⟨1, 4, 20080⟩),
  (⟨1, 4, 10304⟩, ⟨3, 4, 2195300⟩, ⟨1, 4, 63887⟩), (⟨1, 4, 10321⟩, ⟨3, 4, 3707800⟩, ⟨2, 4, 293840⟩),
  (⟨1, 4, 10322⟩, ⟨3, 4, 3785000⟩, ⟨2, 4, 312203⟩), (⟨1, 4, 10325⟩, ⟨3, 4, 3663300⟩, ⟨1, 4, 73871⟩),
  (⟨1, 4, 10330⟩, ⟨3, 4, 4335000⟩, ⟨2, 4, 389829⟩), (⟨1, 4, 10341⟩, ⟨3, 4, 6115900⟩, ⟨2, 4, 478922⟩),
  (⟨1, 4, 10342⟩, ⟨3, 4, 6564000⟩, ⟨2, 4, 510251⟩), (⟨1, 4, 10345⟩, ⟨3, 4, 6583100⟩, ⟨2, 4, 197556⟩),
  (⟨1, 4, 10346⟩, ⟨3, 4, 6247600⟩, ⟨2, 4, 149759⟩), (⟨1, 4, 10347⟩, ⟨3, 4, 6554400⟩, ⟨2, 4, 512167⟩),
  (⟨1, 4, 10361⟩, ⟨4, 4, 10061400⟩, ⟨2, 4, 558535⟩), (⟨1, 4, 10362⟩, ⟨4, 4, 10783800⟩, ⟨2, 4, 584399⟩),
  (⟨1, 4, 10364⟩, ⟨3, 4, 9995300⟩, ⟨2, 4, 577083⟩), (⟨1, 4, 10366⟩, ⟨4, 4, 10696600⟩, ⟨2, 4, 414785⟩),
  (⟨1, 4, 10379⟩, ⟨4, 4, 13447500⟩, ⟨2, 4, 329288⟩), (⟨1, 4, 10383⟩, ⟨4, 4, 12774700⟩, ⟨2, 4, 388722⟩),
  (⟨1, 4, 10384⟩, ⟨4, 4, 13223600⟩, ⟨2, 4, 335836⟩), (⟨1, 4, 10384⟩, ⟨4, 4, 13421000⟩, ⟨2, 4, 338313⟩),
  (⟨1, 4, 10386⟩, ⟨4, 4, 14136500⟩, ⟨2, 4, 261481⟩), (⟨1, 4, 10388⟩, ⟨4, 4, 12917300⟩, ⟨2, 4, 436378⟩),
  (⟨1, 4, 10388⟩, ⟨4, 4, 14330500⟩, ⟨2, 4, 298543⟩), (⟨1, 4, 10392⟩, ⟨4, 4, 14348400⟩, ⟨2, 4, 317112⟩),
  (⟨1, 4, 10397⟩, ⟨4, 4, 12193700⟩, ⟨2, 4, 467653⟩), (⟨1, 4, 10402⟩, ⟨4, 4, 13419100⟩, ⟨2, 4, 246151⟩),
  (⟨1, 4, 10403⟩, ⟨4, 4, 11279100⟩, ⟨2, 4, 486849⟩), (⟨1, 4, 10404⟩, ⟨4, 4, 11899200⟩, ⟨2, 4, 327139⟩),
  (⟨1, 4, 10404⟩, ⟨4, 4, 11504100⟩, ⟨2, 4, 491945⟩), (⟨1, 4, 10407⟩, ⟨4, 4, 11936700⟩, ⟨2, 4, 424099⟩),
  (⟨1, 4, 10418⟩, ⟨3, 4, 8663900⟩, ⟨2, 4, 453296⟩), (⟨1, 4, 10422⟩, ⟨3, 4, 7702400⟩, ⟨2, 4, 414714⟩),
  (⟨1, 4, 10424⟩, ⟨3, 4, 8114700⟩, ⟨2, 4, 427944⟩), (⟨1, 4, 10429⟩, ⟨3, 4, 8332000⟩, ⟨2, 4, 157747⟩),
  (⟨1, 4, 10431⟩, ⟨3, 4, 8075400⟩, ⟨2, 4, 178498⟩), (⟨1, 4, 10437⟩, ⟨3, 4, 5583900⟩, ⟨2, 4, 325643⟩),
  (⟨1, 4, 10440⟩, ⟨3, 4, 5225900⟩, ⟨2, 4, 330851⟩), (⟨1, 4, 10442⟩, ⟨3, 4, 5368700⟩, ⟨2, 4, 305931⟩),
  (⟨1, 4, 10442⟩, ⟨3, 4, 5350400⟩, ⟨2, 4, 359013⟩), (⟨1, 4, 10457⟩, ⟨3, 4, 3719800⟩, ⟨2, 4, 245968⟩),
  (⟨1, 4, 10459⟩, ⟨3, 4, 3643800⟩, ⟨2, 4, 275650⟩), (⟨1, 4, 10460⟩, ⟨3, 4, 4437100⟩, ⟨1, 4, 91090⟩),
  (⟨1, 4, 10471⟩, ⟨3, 4, 3777700⟩, ⟨1, 4, 86275⟩), (⟨1, 4, 10485⟩, ⟨3, 4, 2580700⟩, ⟨2, 4, 138815⟩),
  (⟨1, 4, 10513⟩, ⟨3, 4, 1992600⟩, ⟨1, 4, 61290⟩), (⟨1, 4, 10562⟩, ⟨3, 4, 1154600⟩, ⟨1, 4, 96321⟩),
  (⟨1, 4, 10567⟩, ⟨3, 4, 1159300⟩, ⟨1, 4, 26916⟩), (⟨1, 4, 10575⟩, ⟨2, 4, 935800⟩, ⟨1, 4, 90509⟩),
  (⟨1, 4, 10576⟩, ⟨2, 4, 937500⟩, ⟨1, 4, 78632⟩), (⟨1, 4, 10590⟩, ⟨2, 4, 969600⟩, ⟨1, 4, 34707⟩),
  (⟨1, 4, 10684⟩, ⟨2, 4, 616900⟩, ⟨1, 4, 80387⟩), (⟨1, 4, 10690⟩, ⟨2, 4, 501200⟩, ⟨1, 4, 15497⟩),
  (⟨1, 4, 10693⟩, ⟨2, 4, 503100⟩, ⟨1, 4, 72903⟩), (⟨1, 4, 10805⟩, ⟨2, 4, 356100⟩, ⟨1, 4, 58812⟩),
  (⟨1, 4, 10816⟩, ⟨2, 4, 273000⟩, ⟨1, 4, 19698⟩), (⟨1, 4, 10817⟩, ⟨2, 4, 312700⟩, ⟨1, 4, 11562⟩),
  (⟨1, 4, 11022⟩, ⟨2, 4, 169300⟩, ⟨1, 4, 5855⟩), (⟨1, 4, 11025⟩, ⟨2, 4, 155000⟩, ⟨1, 4, 13000⟩),
  (⟨1, 4, 11025⟩, ⟨2, 4, 166500⟩, ⟨1, 4, 20975⟩), (⟨1, 4, 11043⟩, ⟨2, 4, 174700⟩, ⟨1, 4, 9912⟩),
  (⟨1, 4, 11235⟩, ⟨2, 4, 120900⟩, ⟨1, 4, 7426⟩), (⟨1, 4, 11236⟩, ⟨2, 4, 103000⟩, ⟨1, 4, 5831⟩),
  (⟨1, 4, 11236⟩, ⟨2, 4, 111000⟩, ⟨1, 4, 11459⟩), (⟨1, 4, 11449⟩, ⟨1, 4, 72000⟩, ⟨1, 4, 8246⟩),
  (⟨1, 4, 11449⟩, ⟨1, 4, 68200⟩, ⟨1, 4, 8654⟩), (⟨1, 4, 11664⟩, ⟨1, 4, 64000⟩, ⟨1, 4, 3606⟩), (⟨1, 4, 11664⟩, ⟨1, 4, 50800⟩, ⟨1, 4, 8956⟩),
  (⟨1, 4, 11664⟩, ⟨1, 4, 68600⟩, ⟨1, 4, 4738⟩), (⟨1, 4, 11881⟩, ⟨1, 4, 52000⟩, ⟨1, 4, 8246⟩), (⟨1, 4, 11881⟩, ⟨1, 4, 49700⟩, ⟨1, 4, 7400⟩),
  (⟨1, 4, 12100⟩, ⟨1, 4, 40000⟩, ⟨1, 4, 3162⟩), (⟨1, 4, 12100⟩, ⟨1, 4, 41900⟩, ⟨1, 4, 8052⟩), (⟨1, 4, 12321⟩, ⟨1, 4, 27500⟩, ⟨1, 4, 6549⟩),
  (⟨1, 4, 12321⟩, ⟨1, 4, 34400⟩, ⟨1, 4, 6803⟩), (⟨1, 4, 12544⟩, ⟨1, 4, 27100⟩, ⟨1, 4, 7052⟩), (⟨1, 4, 12544⟩, ⟨1, 4, 28600⟩, ⟨1, 4, 3113⟩),
  (⟨1, 4, 12656⟩, ⟨1, 4, 28100⟩, ⟨1, 4, 3132⟩), (⟨1, 4, 12769⟩, ⟨1, 4, 21500⟩, ⟨1, 4, 5977⟩), (⟨1, 4, 12996⟩, ⟨1, 4, 27500⟩, ⟨1, 4, 5970⟩),
  (⟨1, 4, 13110⟩, ⟨1, 4, 22200⟩, ⟨1, 4, 3081⟩), (⟨1, 4, 13225⟩, ⟨1, 4, 27500⟩, ⟨1, 4, 6878⟩), (⟨1, 4, 13456⟩, ⟨1, 4, 17400⟩, ⟨1, 4, 2943⟩),
  (⟨1, 4, 13456⟩, ⟨1, 4, 15200⟩, ⟨1, 4, 4111⟩), (⟨1, 4, 13456⟩, ⟨1, 4, 17800⟩, ⟨1, 4, 2455⟩), (⟨1, 4, 13689⟩, ⟨1, 4, 20000⟩, ⟨1, 4, 5488⟩),
  (⟨1, 4, 13924⟩, ⟨1, 4, 14000⟩, ⟨1, 4, 3985⟩), (⟨1, 4, 14042⟩, ⟨1, 4, 10400⟩, ⟨1, 4, 1825⟩), (⟨1, 4, 14161⟩, ⟨1, 4, 17200⟩, ⟨1, 4, 4144⟩),
  (⟨1, 4, 14400⟩, ⟨1, 4, 14800⟩, ⟨1, 4, 2340⟩), (⟨1, 4, 14520⟩, ⟨1, 4, 8000⟩, ⟨1, 4, 1628⟩), (⟨1, 4, 14520⟩, ⟨1, 4, 8200⟩, ⟨1, 4, 2309⟩),
  (⟨1, 4, 15006⟩, ⟨1, 4, 7700⟩, ⟨1, 4, 1811⟩), (⟨1, 4, 15006⟩, ⟨1, 4, 11200⟩, ⟨1, 4, 2504⟩), (⟨1, 4, 15376⟩, ⟨1, 4, 8700⟩, ⟨1, 4, 1818⟩),
  (⟨1, 4, 15500⟩, ⟨1, 4, 6200⟩, ⟨1, 4, 1513⟩), (⟨1, 4, 15650⟩, ⟨1, 4, 5500⟩, ⟨1, 4, 1487⟩), (⟨1, 4, 16002⟩, ⟨1, 4, 6600⟩, ⟨1, 4, 2110⟩),
  (⟨1, 4, 16256⟩, ⟨1, 4, 5300⟩, ⟨1, 4, 1629⟩), (⟨1, 4, 16384⟩, ⟨1, 4, 5400⟩, ⟨1, 4, 1409⟩), (⟨1, 4, 16512⟩, ⟨1, 4, 6800⟩, ⟨1, 4, 1960⟩),
  (⟨1, 4, 16796⟩, ⟨1, 4, 4800⟩, ⟨1, 4, 1393⟩), (⟨1, 4, 17030⟩, ⟨1, 4, 4300⟩, ⟨1, 4, 1653⟩), (⟨1, 4, 17424⟩, ⟨1, 4, 5400⟩, ⟨1, 4, 1508⟩),
  (⟨1, 4, 17556⟩, ⟨1, 4, 1600⟩, ⟨1, 4, 873⟩), (⟨1, 4, 17556⟩, ⟨1, 4, 400⟩, ⟨1, 4, 955⟩), (⟨1, 4, 18090⟩, ⟨1, 4, 3300⟩, ⟨1, 4, 1304⟩),
  (⟨1, 4, 18496⟩, ⟨1, 4, 2900⟩, ⟨1, 4, 1404⟩), (⟨1, 4, 18496⟩, ⟨1, 4, 4000⟩, ⟨1, 4, 1305⟩), (⟨1, 4, 18714⟩, ⟨1, 4, 2400⟩, ⟨1, 4, 776⟩),
  (⟨1, 4, 18906⟩, ⟨1, 4, 2800⟩, ⟨1, 4, 1254⟩), (⟨1, 4, 19600⟩, ⟨1, 4, 2200⟩, ⟨1, 4, 1102⟩), (⟨1, 4, 20736⟩, ⟨1, 4, 3200⟩, ⟨1, 4, 1204⟩),
  (⟨1, 4, 21904⟩, ⟨1, 4, 3600⟩, ⟨1, 4, 1105⟩), (⟨1, 4, 23104⟩, ⟨1, 4, 6600⟩, ⟨1, 4, 1314⟩), (⟨1, 4, 24336⟩, ⟨1, 4, 6700⟩, ⟨1, 4, 1314⟩),
  (⟨1, 4, 25600⟩, ⟨1, 4, 8400⟩, ⟨1, 4, 1224⟩), (⟨1, 4, 26896⟩, ⟨1, 4, 8300⟩, ⟨1, 4, 1322⟩), (⟨1, 4, 28224⟩, ⟨1, 4, 5100⟩, ⟨1, 4, 1110⟩),
  (⟨1, 4, 29584⟩, ⟨1, 4, 2600⟩, ⟨1, 4, 1103⟩), (⟨1, 4, 30976⟩, ⟨1, 4, 1100⟩, ⟨1, 4, 701⟩), (⟨1, 4, 32400⟩, ⟨1, 4, 300⟩, ⟨1, 4, 500⟩),
  (⟨1, 4, 33856⟩, ⟨1, 4, 400⟩, ⟨1, 4, 400⟩), (⟨1, 4, 35344⟩, ⟨1, 4, 200⟩, ⟨1, 4, 400⟩), (⟨1, 4, 36864⟩, ⟨1, 4, 700⟩, ⟨1, 4, 500⟩),
  (⟨1, 4, 38416⟩, ⟨1, 4, 900⟩, ⟨1, 4, 501⟩), (⟨1, 4, 40000⟩, ⟨1, 4, 200⟩, ⟨1, 4, 300⟩), (⟨1, 4, 41616⟩, ⟨1, 4, 200⟩, ⟨1, 4, 300⟩),
  (⟨1, 4, 43264⟩, ⟨1, 4, 0⟩, ⟨1, 4, 300⟩), (⟨1, 4, 44944⟩, ⟨1, 4, 100⟩, ⟨1, 4, 200⟩), (⟨1, 4, 46656⟩, ⟨1, 4, 200⟩, ⟨1, 4, 300⟩)]

set_option maxRecDepth 20000 in
theorem neutralKaonCropped_table : neutralKaonCropped = neutralKaonCroppedTable.map rowText := rfl

/-- The numerals of `protonCSExtended`. -/
def protonCSExtendedTable : List (Numeral × Numeral × Numeral) := [
  (⟨1, 8, 356643225⟩, ⟨1, 8, 80600000⟩, ⟨1, 8, 5491812⟩), (⟨1, 8, 356643225⟩, ⟨1, 8, 72100000⟩, ⟨1, 8, 7561085⟩),
  (⟨1, 8, 357210000⟩, ⟨1, 8, 198000000⟩, ⟨1, 8, 77833155⟩), (⟨1, 8, 361000000⟩, ⟨1, 8, 120000000⟩, ⟨1, 8, 29529646⟩),
  (⟨1, 8, 361000000⟩, ⟨1, 8, 165000000⟩, ⟨1, 8, 69835521⟩), (⟨1, 8, 361000000⟩, ⟨1, 8, 121000000⟩, ⟨1, 8, 51478151⟩),
  (⟨1, 8, 365765625⟩, ⟨1, 8, 90600000⟩, ⟨1, 8, 5936329⟩), (⟨1, 8, 365765625⟩, ⟨1, 8, 73500000⟩, ⟨1, 8, 8127115⟩),
  (⟨1, 8, 368640000⟩, ⟨1, 8, 87000000⟩, ⟨1, 8, 7071068⟩), (⟨1, 8, 370562500⟩, ⟨1, 8, 90000000⟩, ⟨1, 8, 7071068⟩),
  (⟨1, 8, 375390625⟩, ⟨1, 8, 84500000⟩, ⟨1, 8, 5630275⟩), (⟨1, 8, 375390625⟩, ⟨1, 8, 78700000⟩, ⟨1, 8, 8919641⟩),
  (⟨1, 8, 376360000⟩, ⟨1, 8, 87000000⟩, ⟨1, 8, 7071068⟩), (⟨1, 8, 380250000⟩, ⟨1, 8, 89000000⟩, ⟨1, 8, 7810250⟩),
  (⟨1, 8, 384160000⟩, ⟨1, 8, 96000000⟩, ⟨1, 8, 8485281⟩), (⟨1, 8, 385140625⟩, ⟨1, 8, 81700000⟩, ⟨1, 8, 5491812⟩),
  (⟨1, 8, 385140625⟩, ⟨1, 8, 93300000⟩, ⟨1, 8, 9620811⟩), (⟨1, 8, 390062500⟩, ⟨1, 8, 90000000⟩, ⟨1, 8, 7071068⟩),
  (⟨1, 8, 392040000⟩, ⟨1, 8, 98000000⟩, ⟨1, 8, 7810250⟩), (⟨1, 8, 395015625⟩, ⟨1, 8, 85400000⟩, ⟨1, 8, 5714018⟩),
  (⟨1, 8, 395015625⟩, ⟨1, 8, 81800000⟩, ⟨1, 8, 9889894⟩), (⟨1, 8, 400000000⟩, ⟨1, 8, 95000000⟩, ⟨1, 8, 8485281⟩),
  (⟨1, 8, 400000000⟩, ⟨1, 8, 84130000⟩, ⟨1, 8, 2733661⟩), (⟨1, 8, 405015625⟩, ⟨1, 8, 84200000⟩, ⟨1, 8, 5660389⟩),
  (⟨1, 8, 405015625⟩, ⟨1, 8, 79700000⟩, ⟨1, 8, 9360021⟩), (⟨1, 8, 405015625⟩, ⟨1, 8, 79600000⟩, ⟨1, 8, 9677293⟩),
  (⟨1, 8, 415140625⟩, ⟨1, 8, 84600000⟩, ⟨1, 8, 5714018⟩), (⟨1, 8, 415140625⟩, ⟨1, 8, 83300000⟩, ⟨1, 8, 8292768⟩),
  (⟨1, 8, 415140625⟩, ⟨1, 8, 95000000⟩, ⟨1, 8, 10046392⟩), (⟨1, 8, 420250000⟩, ⟨1, 8, 75340000⟩, ⟨1, 8, 2978490⟩),
  (⟨1, 8, 425390625⟩, ⟨1, 8, 75000000⟩, ⟨1, 8, 5300000⟩), (⟨1, 8, 425390625⟩, ⟨1, 8, 72300000⟩, ⟨1, 8, 6767570⟩),
  (⟨1, 8, 425390625⟩, ⟨1, 8, 101100000⟩, ⟨1, 8, 10346980⟩), (⟨1, 8, 435765625⟩, ⟨1, 8, 79600000⟩, ⟨1, 8, 5437830⟩),
  (⟨1, 8, 435765625⟩, ⟨1, 8, 74900000⟩, ⟨1, 8, 5780138⟩), (⟨1, 8, 435765625⟩, ⟨1, 8, 79200000⟩, ⟨1, 8, 9323090⟩),
  (⟨1, 8, 441000000⟩, ⟨1, 8, 71260000⟩, ⟨1, 8, 2329378⟩), (⟨1, 8, 446265625⟩, ⟨1, 8, 77900000⟩, ⟨1, 8, 5353504⟩),
  (⟨1, 8, 446265625⟩, ⟨1, 8, 65400000⟩, ⟨1, 8, 5630275⟩), (⟨1, 8, 446265625⟩, ⟨1, 8, 76200000⟩, ⟨1, 8, 8766413⟩),
  (⟨1, 8, 451562500⟩, ⟨1, 8, 66000000⟩, ⟨1, 8, 1992712⟩), (⟨1, 8, 456890625⟩, ⟨1, 8, 66600000⟩, ⟨1, 8, 5077401⟩),
  (⟨1, 8, 456890625⟩, ⟨1, 8, 63700000⟩, ⟨1, 8, 4940648⟩), (⟨1, 8, 456890625⟩, ⟨1, 8, 61000000⟩, ⟨1, 8, 7716217⟩),
  (⟨1, 8, 462250000⟩, ⟨1, 8, 58880000⟩, ⟨1, 8, 2468299⟩), (⟨1, 8, 467640625⟩, ⟨1, 8, 55100000⟩, ⟨1, 8, 4750789⟩),
  (⟨1, 8, 467640625⟩, ⟨1, 8, 55700000⟩, ⟨1, 8, 4743416⟩), (⟨1, 8, 467640625⟩, ⟨1, 8, 65000000⟩, ⟨1, 8, 7843469⟩),
  (⟨1, 8, 473062500⟩, ⟨1, 8, 49100000⟩, ⟨1, 8, 1682379⟩), (⟨1, 8, 478515625⟩, ⟨1, 8, 42900000⟩, ⟨1, 8, 4031129⟩),
  (⟨1, 8, 478515625⟩, ⟨1, 8, 46700000⟩, ⟨1, 8, 3920459⟩), (⟨1, 8, 478515625⟩, ⟨1, 8, 42700000⟩, ⟨1, 8, 6484597⟩),
  (⟨1, 8, 484000000⟩, ⟨1, 8, 41160000⟩, ⟨1, 8, 1386542⟩), (⟨1, 8, 489515625⟩, ⟨1, 8, 39000000⟩, ⟨1, 8, 3807887⟩),
  (⟨1, 8, 489515625⟩, ⟨1, 8, 37100000⟩, ⟨1, 8, 3420526⟩), (⟨1, 8, 489515625⟩, ⟨1, 8, 38500000⟩, ⟨1, 8, 6236185⟩),
  (⟨1, 8, 498360976⟩, ⟨1, 8, 34190000⟩, ⟨1, 8, 1159741⟩), (⟨1, 8, 500640625⟩, ⟨1, 8, 37900000⟩, ⟨1, 8, 3577709⟩),
  (⟨1, 8, 500640625⟩, ⟨1, 8, 31000000⟩, ⟨1, 8, 2906888⟩), (⟨1, 8, 500640625⟩, ⟨1, 8, 31400000⟩, ⟨1, 8, 5385165⟩),
  (⟨1, 8, 511890625⟩, ⟨1, 8, 23400000⟩, ⟨1, 8, 2996665⟩), (⟨1, 8, 511890625⟩, ⟨1, 8, 22500000⟩, ⟨1, 8, 2262742⟩),
  (⟨1, 8, 511890625⟩, ⟨1, 8, 35900000⟩, ⟨1, 8, 5508176⟩), (⟨1, 8, 523265625⟩, ⟨1, 8, 20100000⟩, ⟨1, 8, 2773085⟩),
  (⟨1, 8, 523265625⟩, ⟨1, 8, 19200000⟩, ⟨1, 8, 1979899⟩), (⟨1, 8, 523265625⟩, ⟨1, 8, 18600000⟩, ⟨1, 8, 4438468⟩),
  (⟨1, 8, 533332836⟩, ⟨1, 8, 14800000⟩, ⟨1, 8, 648845⟩), (⟨1, 8, 540562500⟩, ⟨1, 8, 14300000⟩, ⟨1, 8, 1843909⟩),
  (⟨1, 8, 540562500⟩, ⟨1, 8, 13610000⟩, ⟨1, 8, 1131459⟩), (⟨1, 8, 540562500⟩, ⟨1, 8, 15400000⟩, ⟨1, 8, 2816026⟩),
  (⟨1, 8, 564062500⟩, ⟨1, 8, 10500000⟩, ⟨1, 8, 1627882⟩), (⟨1, 8, 564062500⟩, ⟨1, 8, 11630000⟩, ⟨1, 8, 1210372⟩),
  (⟨1, 8, 564062500⟩, ⟨1, 8, 10700000⟩, ⟨1, 8, 2376973⟩), (⟨1, 8, 569490496⟩, ⟨1, 8, 12200000⟩, ⟨1, 8, 456070⟩),
  (⟨1, 8, 574081600⟩, ⟨1, 8, 12190000⟩, ⟨1, 8, 393954⟩), (⟨1, 8, 588062500⟩, ⟨1, 8, 11500000⟩, ⟨1, 8, 1341641⟩),
  (⟨1, 8, 588062500⟩, ⟨1, 8, 12610000⟩, ⟨1, 8, 956713⟩), (⟨1, 8, 588062500⟩, ⟨1, 8, 10000000⟩, ⟨1, 8, 2154066⟩),
  (⟨1, 8, 612562500⟩, ⟨1, 8, 10100000⟩, ⟨1, 8, 1208305⟩), (⟨1, 8, 612562500⟩, ⟨1, 8, 10010000⟩, ⟨1, 8, 912853⟩),
  (⟨1, 8, 612562500⟩, ⟨1, 8, 10800000⟩, ⟨1, 8, 2024846⟩), (⟨1, 8, 625000000⟩, ⟨1, 8, 7790000⟩, ⟨1, 8, 1127209⟩),
  (⟨1, 8, 637562500⟩, ⟨1, 8, 8400000⟩, ⟨1, 8, 1077033⟩), (⟨1, 8, 637562500⟩, ⟨1, 8, 6740000⟩, ⟨1, 8, 686222⟩),
  (⟨1, 8, 637562500⟩, ⟨1, 8, 9000000⟩, ⟨1, 8, 1772005⟩), (⟨1, 8, 663062500⟩, ⟨1, 8, 5500000⟩, ⟨1, 8, 854400⟩),
  (⟨1, 8, 663062500⟩, ⟨1, 8, 6110000⟩, ⟨1, 8, 590339⟩), (⟨1, 8, 663062500⟩, ⟨1, 8, 6400000⟩, ⟨1, 8, 1431782⟩),
  (⟨1, 8, 689062500⟩, ⟨1, 8, 4000000⟩, ⟨1, 8, 854400⟩), (⟨1, 8, 689062500⟩, ⟨1, 8, 4100000⟩, ⟨1, 8, 470106⟩),
  (⟨1, 8, 689062500⟩, ⟨1, 8, 6700000⟩, ⟨1, 8, 1334166⟩), (⟨1, 8, 699285136⟩, ⟨1, 8, 3970000⟩, ⟨1, 8, 176918⟩),
  (⟨1, 8, 700343296⟩, ⟨1, 8, 3820000⟩, ⟨1, 8, 176918⟩), (⟨1, 8, 715562500⟩, ⟨1, 8, 2800000⟩, ⟨1, 8, 670820⟩),
  (⟨1, 8, 715562500⟩, ⟨1, 8, 3360000⟩, ⟨1, 8, 394081⟩), (⟨1, 8, 715562500⟩, ⟨1, 8, 3100000⟩, ⟨1, 8, 1118034⟩),
  (⟨1, 8, 729000000⟩, ⟨1, 8, 2980000⟩, ⟨1, 8, 688840⟩), (⟨1, 8, 742562500⟩, ⟨1, 8, 3600000⟩, ⟨1, 8, 761577⟩),
  (⟨1, 8, 742562500⟩, ⟨1, 8, 3070000⟩, ⟨1, 8, 424264⟩), (⟨1, 8, 742562500⟩, ⟨1, 8, 2600000⟩, ⟨1, 8, 1019804⟩),
  (⟨1, 8, 770062500⟩, ⟨1, 8, 2900000⟩, ⟨1, 8, 670820⟩), (⟨1, 8, 770062500⟩, ⟨1, 8, 2680000⟩, ⟨1, 8, 361248⟩),
  (⟨1, 8, 770062500⟩, ⟨1, 8, 3300000⟩, ⟨1, 8, 1019804⟩), (⟨1, 8, 784000000⟩, ⟨1, 8, 2200000⟩, ⟨1, 8, 287924⟩),
  (⟨1, 8, 798062500⟩, ⟨1, 8, 1800000⟩, ⟨1, 8, 509902⟩), (⟨1, 8, 798062500⟩, ⟨1, 8, 2160000⟩, ⟨1, 8, 325269⟩),
  (⟨1, 8, 798062500⟩, ⟨1, 8, 1800000⟩, ⟨1, 8, 905539⟩), (⟨1, 8, 826562500⟩, ⟨1, 8, 2700000⟩, ⟨1, 8, 632456⟩),
  (⟨1, 8, 826562500⟩, ⟨1, 8, 2040000⟩, ⟨1, 8, 284253⟩), (⟨1, 8, 826562500⟩, ⟨1, 8, 3000000⟩, ⟨1, 8, 854400⟩),
  (⟨1, 8, 841000000⟩, ⟨1, 8, 1500000⟩, ⟨1, 8, 70711⟩), (⟨1, 8, 855562500⟩, ⟨1, 8, 1900000⟩, ⟨1, 8, 538516⟩),
  (⟨1, 8, 855562500⟩, ⟨1, 8, 1020000⟩, ⟨1, 8, 272029⟩), (⟨1, 8, 855562500⟩, ⟨1, 8, 1800000⟩, ⟨1, 8, 806226⟩),
  (⟨1, 8, 870250000⟩, ⟨1, 8, 1170000⟩, ⟨1, 8, 117047⟩), (⟨1, 8, 885062500⟩, ⟨1, 8, 2000000⟩, ⟨1, 8, 538516⟩),
  (⟨1, 8, 885062500⟩, ⟨1, 8, 1410000⟩, ⟨1, 8, 264008⟩), (⟨1, 8, 885062500⟩, ⟨1, 8, 1900000⟩, ⟨1, 8, 707107⟩),
  (⟨1, 8, 888636100⟩, ⟨1, 8, 1290000⟩, ⟨1, 8, 120830⟩), (⟨1, 8, 900000000⟩, ⟨1, 8, 920000⟩, ⟨1, 8, 104403⟩),
  (⟨1, 8, 912040000⟩, ⟨1, 8, 900000⟩, ⟨1, 8, 94868⟩), (⟨1, 8, 948640000⟩, ⟨1, 8, 900000⟩, ⟨1, 8, 42426⟩),
  (⟨1, 8, 961000000⟩, ⟨1, 8, 420000⟩, ⟨1, 8, 256125⟩), (⟨1, 8, 961000000⟩, ⟨1, 8, 840000⟩, ⟨1, 8, 183109⟩),
  (⟨1, 8, 961000000⟩, ⟨1, 8, 1110000⟩, ⟨1, 8, 169706⟩), (⟨2, 8, 1089000000⟩, ⟨1, 8, 540000⟩, ⟨1, 8, 162788⟩),
  (⟨2, 8, 1089000000⟩, ⟨1, 8, 380000⟩, ⟨1, 8, 71631⟩), (⟨2, 8, 1089000000⟩, ⟨1, 8, 359000⟩, ⟨1, 8, 65115⟩),
  (⟨2, 8, 1225000000⟩, ⟨1, 8, 160000⟩, ⟨1, 8, 67082⟩), (⟨2, 8, 1225000000⟩, ⟨1, 8, 242000⟩, ⟨1, 8, 46029⟩),
  (⟨2, 8, 1225000000⟩, ⟨1, 8, 218000⟩, ⟨1, 8, 39205⟩), (⟨2, 8, 1369000000⟩, ⟨1, 8, 190000⟩, ⟨1, 8, 85440⟩),
  (⟨2, 8, 1369000000⟩, ⟨1, 8, 98000⟩, ⟨1, 8, 30255⟩), (⟨2, 8, 1369000000⟩, ⟨1, 8, 64000⟩, ⟨1, 8, 26249⟩),
  (⟨2, 8, 1521000000⟩, ⟨1, 8, 20000⟩, ⟨1, 8, 44721⟩), (⟨2, 8, 1521000000⟩, ⟨1, 8, 72000⟩, ⟨1, 8, 19217⟩),
  (⟨2, 8, 1701562500⟩, ⟨1, 8, 30000⟩, ⟨1, 8, 36056⟩), (⟨2, 8, 1806250000⟩, ⟨1, 8, 16500⟩, ⟨1, 8, 5341⟩),
  (⟨2, 8, 1914062500⟩, ⟨1, 8, 30000⟩, ⟨1, 8, 36056⟩), (⟨2, 8, 2500000000⟩, ⟨1, 8, 1800⟩, ⟨1, 8, 1003⟩),
  (⟨2, 8, 3600000000⟩, ⟨1, 8, 140⟩, ⟨1, 8, 250⟩)]

set_option maxRecDepth 20000 in
theorem protonCSExtended_table : protonCSExtended = protonCSExtendedTable.map rowText := rfl

end UA
