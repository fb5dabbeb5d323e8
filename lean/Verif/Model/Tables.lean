import Verif.Model.Quad

/-!
# The tables of `src/quad/common.rs` (those of `src/double/common.rs` are in `Model.Double`)

Generated by `tools/gen_tables.py` from the decimal literals in the source. Arrays are lists; an index outside the list is
a panic.
-/

namespace Verif

namespace Quad

/-- A `Quad` written with four decimal literals. -/
def lit (s1 : Bool) (n1 : ℕ) (e1 : ℤ) (s2 : Bool) (n2 : ℕ) (e2 : ℤ) (s3 : Bool) (n3 : ℕ) (e3 : ℤ)
    (s4 : Bool) (n4 : ℕ) (e4 : ℤ) : Quad := ⟨F64.ofDec s1 n1 e1, F64.ofDec s2 n2 e2, F64.ofDec s3 n3 e3, F64.ofDec s4 n4 e4⟩

/-- `INV_FACTS` — src/quad/common.rs:15-106 -/
def INV_FACTS : List Quad := [
  lit false 16666666666666666 (-17) false 925185853854297 (-32) false 5135813185032629 (-49) false 28509490240983423 (-66),
  lit false 41666666666666664 (-18) false 23129646346357427 (-34) false 12839532962581572 (-50) false 7127372560245855 (-66),
  lit false 8333333333333333 (-18) false 11564823173178714 (-35) false 16049416203226965 (-52) false 222730392507682 (-67),
  lit false 1388888888888889 (-18) true 5300543954373577 (-35) true 17386867553495878 (-52) true 16333562117230084 (-68),
  lit false 1984126984126984 (-19) false 17209558293420705 (-38) false 14926912391394127 (-56) false 12947032674766573 (-74),
  lit false 248015873015873 (-19) false 21511947866775882 (-39) false 1865864048924266 (-56) false 16183790843843425 (-75),
  lit false 27557319223985893 (-22) true 1858393274046472 (-37) false 8491754604881993 (-54) true 5726616407894298 (-70),
  lit false 2755731922398589 (-22) false 23767714622250297 (-39) true 3263188903340883 (-55) false 16143511186040432 (-72),
  lit false 2505210838544172 (-23) true 1448814070935912 (-39) false 20426735146714455 (-57) true 849632672007163 (-72),
  lit false 208767569878681 (-23) true 120734505911326 (-39) false 1702227928892871 (-57) false 14160953215039672 (-74),
  lit false 16059043836821613 (-26) false 12585294588752098 (-42) true 531334602762985 (-57) false 3540214725976055 (-74),
  lit false 11470745597729725 (-27) false 20655512752830745 (-44) false 6889079232466646 (-60) false 57292000265510916 (-77),
  lit false 7647163731819816 (-28) false 703872877733453 (-44) true 7827539277162583 (-63) false 19213864944378356 (-80),
  lit false 4779477332387385 (-29) false 4399205485834081 (-46) true 4892212048226615 (-64) false 12008665590236055 (-81),
  lit false 28114572543455206 (-31) false 16508842730861433 (-47) true 2877771793074479 (-65) false 4271106892562081 (-82)]

/-- `SINES` — src/quad/common.rs:109-1646 -/
def SINES : List Quad := [
  lit false 3067956762965976 (-18) false 12690279085455925 (-35) false 5287946424532839 (-51) true 17820334081955295 (-68),
  lit false 6135884649154475 (-18) false 9054525748247493 (-35) false 1626011313374532 (-52) true 9749200120876422 (-70),
  lit false 920375478205982 (-17) true 12136591693535934 (-35) false 5569690394942557 (-51) false 12505635791936973 (-68),
  lit false 12271538285719925 (-18) false 6919790764028317 (-34) true 40203726713435555 (-52) true 20688703606952494 (-68),
  lit false 15339206284988102 (-18) true 844625788654017 (-33) false 4653589750505863 (-50) true 1392368297857049 (-66),
  lit false 1840672990580482 (-17) false 7419553381283316 (-34) false 39068476486787607 (-51) false 36393321292898124 (-68),
  lit false 21474080275469508 (-18) true 4540796020768857 (-34) true 22031770119723005 (-51) false 12709814654833732 (-67),
  lit false 24541228522912288 (-18) true 9186849012577878 (-35) false 4870614870446706 (-51) true 28153947855469075 (-68),
  lit false 27608145778965743 (-18) true 1593235883138927 (-33) true 7047541624277603 (-50) true 2751849417660274 (-66),
  lit false 30674803176636626 (-18) true 1693605484410792 (-35) false 10053112316608014 (-52) false 43727432941767413 (-70),
  lit false 3374117185137759 (-17) true 2009607429236834 (-33) true 13548237016537134 (-50) false 6555488187589997 (-66),
  lit false 3680722294135883 (-17) false 6106008880352984 (-34) true 40448721259852727 (-51) true 21111056765671487 (-67),
  lit false 3987292758773981 (-17) false 4665745348118329 (-34) false 34119333562288684 (-51) false 240075347261875 (-65),
  lit false 4293825693494082 (-17) false 28351940588660907 (-34) false 16991309601186475 (-50) false 6802653609867265 (-66),
  lit false 4600318213091463 (-17) true 11182813940157788 (-34) false 7523502027037895 (-50) false 41187304955493796 (-68),
  lit false 49067674327418015 (-18) true 679610372051828 (-33) true 44318868124718325 (-51) true 9937662813252524 (-67),
  lit false 52131704680283324 (-18) true 2424369529195378 (-33) true 13675405320092298 (-50) true 8393813762114509 (-66),
  lit false 5519524434968994 (-17) true 13340299860891103 (-34) true 3435957412566561 (-50) false 1191146275540942 (-66),
  lit false 5825826450043576 (-17) false 2329990549607749 (-34) false 1937610899062866 (-51) true 5127377571009318 (-68),
  lit false 6132073630220858 (-17) true 5118113406463811 (-34) true 42726335866706313 (-51) false 26368495557440717 (-67),
  lit false 6438263092985747 (-17) true 42325997000052705 (-34) false 33260117711855937 (-51) false 14736267706718376 (-67),
  lit false 6744391956366406 (-17) true 69221796556983636 (-34) false 1590928635891104 (-49) true 7882894689183518 (-66),
  lit false 7050457338961387 (-17) true 6855279110734288 (-33) true 1996117763084158 (-49) false 20127129580485298 (-66),
  lit false 7356456359966743 (-17) true 27784941506273593 (-34) true 9124037548985282 (-50) true 19589752023546822 (-67),
  lit false 7662386139203149 (-17) false 232537002879588 (-33) true 1318608392121344 (-51) true 4992787260809975 (-68),
  lit false 7968243797143013 (-17) true 4486766431137304 (-33) false 28540789143650264 (-50) false 28491348583262765 (-67),
  lit false 8274026454937569 (-17) false 1473598353087776 (-33) false 37284093452233713 (-51) false 29024430036723684 (-68),
  lit false 857973123444399 (-16) true 3388189383068403 (-33) true 16135529531508258 (-50) false 7729465162058808 (-66),
  lit false 888535525825246 (-16) true 3750177583029069 (-33) false 37543606373911578 (-50) true 20530533507023269 (-66),
  lit false 9190895649713272 (-17) false 47631594854274564 (-34) false 15722874642939344 (-50) true 48464145447831486 (-67),
  lit false 94963495329639 (-15) true 65885886400417564 (-34) true 21371116991641965 (-50) false 13819370559249302 (-66),
  lit false 980171403295606 (-16) true 1634582362244256 (-33) true 13209238810006454 (-51) true 3569106004911789 (-67),
  lit false 10106986275482782 (-17) false 33164325719308656 (-34) true 12004224885132282 (-50) false 7202882849541882 (-66),
  lit false 10412163387205457 (-17) false 657602540853851 (-32) false 17066246171219214 (-50) true 4949934099689357 (-66),
  lit false 10717242495680884 (-17) false 644240442790262 (-32) true 8395697649969814 (-50) true 4066773021331873 (-66),
  lit false 11022220729388306 (-17) true 5678950353782323 (-34) false 10380274792383233 (-51) false 15213997918457891 (-68),
  lit false 11327095217756435 (-17) false 271004810121329 (-32) false 1532329299949162 (-50) false 4956443281036479 (-67),
  lit false 11631863091190477 (-17) false 10294914877509705 (-34) true 9397573494899304 (-50) false 13534827323718545 (-68),
  lit false 11936521481099137 (-17) true 39500089391898506 (-34) false 3531734997822731 (-49) false 18856046807012723 (-67),
  lit false 1224106751992162 (-16) false 28354501489965335 (-34) false 18151655751493305 (-50) true 28716592177915257 (-67),
  lit false 12545498341154623 (-17) false 48686751763148235 (-34) false 5987810525809794 (-50) true 3353462909872179 (-66),
  lit false 12849811079379317 (-17) false 381986039549888 (-32) true 18627501455947798 (-50) true 24308161133527975 (-67),
  lit false 13154002870288312 (-17) true 5003970826221381 (-33) true 12983004159245552 (-50) true 4687203491579388 (-66),
  lit false 1345807085071262 (-16) true 916703591714807 (-32) false 15916493007073973 (-50) false 4023700248436679 (-66),
  lit false 13762012158648604 (-17) false 6625325586677448 (-33) true 2374658303140146 (-49) true 9370387617309003 (-67),
  lit false 14065823933284924 (-17) true 7919393296552474 (-33) false 609724642021084 (-48) false 24566623241035754 (-66),
  lit false 14369503315029444 (-17) false 11472723016618666 (-33) true 5188495455757643 (-50) true 42220684832186815 (-67),
  lit false 14673047445536175 (-17) false 3726947147046568 (-33) false 37352398151250827 (-50) true 40881822289508557 (-67),
  lit false 1497645346773215 (-16) false 8081211413128515 (-33) false 12979142554917325 (-50) false 993806674877366 (-65),
  lit false 15279718525844344 (-17) true 7631357393841684 (-33) false 57714690450284125 (-50) true 37731132582986663 (-66),
  lit false 15582839765426523 (-17) false 3035130718767822 (-33) true 10976942315176184 (-50) false 7873464768525745 (-66),
  lit false 15885814333386145 (-17) true 4016320057385908 (-33) true 9284058025762881 (-50) true 2856742002927449 (-66),
  lit false 16188639378011183 (-17) false 11850519643573528 (-33) true 5044099051916296 (-49) false 3051002870792798 (-65),
  lit false 16491312048996992 (-17) true 7040528831916674 (-34) false 33211107491245527 (-51) false 8666329925468717 (-67),
  lit false 16793829497473117 (-17) false 5428453372155814 (-33) true 3326333933618137 (-49) true 18536367335123897 (-66),
  lit false 17096188876030122 (-17) false 919199801817591 (-32) true 67688743940982606 (-50) true 10377711384318362 (-66),
  lit false 17398387338746382 (-17) false 5815199461810793 (-33) true 16751014298301606 (-50) true 6698225979716456 (-66),
  lit false 17700422041214875 (-17) false 6732930063540817 (-33) false 28042736644246623 (-50) false 3678688823279387 (-66),
  lit false 18002290140569951 (-17) false 7970182604739214 (-33) true 7076592011052498 (-49) false 19622512608461807 (-66),
  lit false 18303988795514095 (-17) false 7734991868863738 (-33) true 4480376996814508 (-49) false 1120114879332894 (-65),
  lit false 18605515166344666 (-17) true 12564893007679552 (-33) false 7595384424853081 (-49) true 3847169513241551 (-66),
  lit false 18906866414980622 (-17) true 7620895580352778 (-33) true 4479229865666299 (-49) false 4139164662630522 (-65),
  lit false 19208039704989244 (-17) false 433483439411749 (-32) true 23404121848139937 (-50) false 15789970962611875 (-66),
  lit false 19509032201612828 (-17) true 7991079068461731 (-33) false 6184627002422071 (-49) true 3584027091803293 (-65),
  lit false 1980984107179536 (-16) true 18434411800689445 (-34) false 14139031318237285 (-50) false 10542811125343775 (-66),
  lit false 2011046348420919 (-16) false 11010032669300739 (-33) true 3912357675741379 (-49) false 24084852500063748 (-67),
  lit false 20410896609281687 (-17) false 6094129777395775 (-33) true 2827540997044964 (-49) false 4610100856353328 (-66),
  lit false 20711137619221856 (-17) true 10613362528971356 (-33) false 22456805112690884 (-50) false 13483736125280926 (-66),
  lit false 2101118368804696 (-16) false 11561548476512844 (-33) false 6035590561040125 (-49) false 33329909618405684 (-66),
  lit false 21311031991609136 (-17) false 1203187382106386 (-32) true 34142699719695635 (-50) true 1243626278024175 (-65),
  lit false 21610679707621952 (-17) true 10111196082609117 (-33) false 7278954533518964 (-49) true 29347540365258595 (-66),
  lit false 2191012401568698 (-16) true 36513812299150776 (-35) true 23359499418606442 (-51) false 31785298198457637 (-68),
  lit false 22209362097320354 (-17) true 30337210995812162 (-34) false 66654668033633 (-48) false 20110862322656835 (-67),
  lit false 22508391135979283 (-17) false 3950704082255651 (-33) false 24287993958305375 (-51) false 56662797513025196 (-68),
  lit false 22807208317088573 (-17) false 8236183733925801 (-33) false 6978678131639794 (-49) true 6412296248263911 (-66),
  lit false 2310581082806711 (-16) false 10129787149761869 (-33) true 6935923461581604 (-49) true 2887735560488378 (-65),
  lit false 23404195858354343 (-17) true 6992240269610117 (-33) true 5732303192275028 (-49) false 5309257996687299 (-66),
  lit false 2370236059943672 (-16) false 8854485228503992 (-33) false 13588480826354134 (-50) false 10381022520213889 (-66),
  lit false 2400030224487415 (-16) true 12137758975632164 (-33) true 2644880773170389 (-49) true 1992973380067015 (-66),
  lit false 2429801799032639 (-16) true 8751431529719663 (-33) true 6572326037307943 (-49) true 10333158083172172 (-66),
  lit false 24595505033579462 (-17) true 11129044052741832 (-33) false 438059982028834 (-48) false 12219399554686294 (-66),
  lit false 24892760574572018 (-17) true 8178343610002099 (-33) false 5566687526111184 (-49) false 38080473058748167 (-66),
  lit false 25189781815421697 (-17) true 1759143603251704 (-32) true 10959681232525285 (-49) false 5620942602023243 (-65),
  lit false 25486565960451457 (-17) true 13602299806901461 (-35) true 60073844642762535 (-52) true 3007275131189635 (-67),
  lit false 257831102162159 (-15) false 18480038630879957 (-33) false 332016647140476 (-48) true 5554781929057646 (-66),
  lit false 2607941179152755 (-16) false 42721420983550075 (-34) false 5678212693477792 (-50) false 3142833808436547 (-66),
  lit false 2637546789748314 (-16) true 188379476800387 (-31) false 13720129045754794 (-49) true 8276340666596603 (-65),
  lit false 26671275747489837 (-17) false 20941222578826688 (-33) true 1130346652472799 (-48) false 19954224050508953 (-66),
  lit false 2696683255729151 (-16) false 1576565761813326 (-32) true 6969614217337009 (-49) true 40455346879146766 (-66),
  lit false 272621355449949 (-15) false 7869716607638785 (-33) false 6617938860293337 (-50) true 2764290369638619 (-66),
  lit false 27557181931095814 (-17) false 19320328962556582 (-33) false 1393209418010028 (-48) false 1361725392001808 (-65),
  lit false 2785196893850531 (-16) true 10030273719543544 (-33) false 7259211532568925 (-49) true 1006851629665586 (-65),
  lit false 281464937925758 (-15) true 1232229964127401 (-32) true 10564788706386435 (-50) false 7513742425126599 (-66),
  lit false 2844075372112718 (-16) false 22209268510661475 (-33) true 918230956295237 (-48) true 5219287530889219 (-65),
  lit false 2873474595447295 (-16) false 15461117367645717 (-33) true 6326397366344408 (-49) true 22982538416476248 (-66),
  lit false 2902846772544624 (-16) true 1892797870777425 (-32) false 11522953157142315 (-49) false 7473865565471657 (-65),
  lit false 29321916269425863 (-17) false 22385430811901833 (-33) false 1366248464653968 (-48) true 4245132525399692 (-65),
  lit false 29615088824362384 (-17) true 20220736360876938 (-33) true 7925221253392041 (-50) true 2899057772957201 (-66),
  lit false 2990798263080405 (-16) false 16701181609219447 (-34) false 8609115111731629 (-50) false 3993128623001396 (-67),
  lit false 3020059493192281 (-16) true 17167666235262474 (-33) false 2333618214900807 (-49) false 8302533455521957 (-66),
  lit false 30492922973540243 (-17) true 22989033898191262 (-33) true 14598901099661133 (-50) false 37760487693121697 (-67),
  lit false 30784964004153487 (-17) false 27074088527245185 (-33) false 12568858206899284 (-49) false 7293181510590166 (-65),
  lit false 3107671527496115 (-16) false 20887076364048513 (-33) true 30130590791065942 (-50) false 13876739009935514 (-67),
  lit false 31368174039889146 (-17) false 14560447299968912 (-33) false 36564186898011595 (-50) false 1165426473499937 (-65),
  lit false 31659337555616585 (-17) false 21435292512726283 (-33) false 12338169231377316 (-49) false 33963542100989274 (-66),
  lit false 3195020308160157 (-16) true 13981562491096626 (-33) false 8173000069741135 (-49) true 7767109627021095 (-65),
  lit false 32240767880106985 (-17) true 405190399379594 (-32) false 37438302780296796 (-50) false 8793673104663928 (-66),
  lit false 3253102921622629 (-16) false 791712494637659 (-32) true 6757662206814639 (-50) false 2302165506692977 (-66),
  lit false 32820984357909255 (-17) true 26693140719641896 (-33) false 7892885144753479 (-49) false 25525163821987572 (-67),
  lit false 33110630575987643 (-17) true 27469465474778694 (-33) true 13401245916610206 (-49) false 6553176248997621 (-65),
  lit false 3339996514420094 (-16) false 22598986806288142 (-33) false 7806305719258612 (-49) false 2042760089548672 (-65),
  lit false 33688985339222005 (-17) true 4200094003347509 (-34) true 29178652969985438 (-52) true 1159737643703204 (-67),
  lit false 33977688440682685 (-17) false 6602867949941828 (-33) false 12575009988669683 (-50) false 25569067699008188 (-67),
  lit false 3426607173119944 (-16) false 1926151844930632 (-32) true 9275418913599087 (-49) false 8543999668739021 (-65),
  lit false 34554132496398904 (-17) false 27251143672916123 (-33) false 7013816360194174 (-49) true 14176292197453965 (-66),
  lit false 34841868024943456 (-17) false 3697442051420492 (-33) false 35532146878499996 (-50) false 1956546254450134 (-65),
  lit false 35129275608556715 (-17) true 22670712098795844 (-33) true 16994216673139633 (-50) false 9110561603453039 (-66),
  lit false 3541635254204904 (-16) true 1695176330576486 (-32) false 12772331777814617 (-49) true 3370378543584333 (-65),
  lit false 35703096123343003 (-17) true 4821819113791917 (-34) true 4167243699449236 (-50) true 715311671493684 (-66),
  lit false 35989503653498817 (-17) true 17601687123839282 (-33) false 13375125473046791 (-49) false 7946781559358436 (-65),
  lit false 3627557243673972 (-16) true 9166835266374985 (-33) true 74317843956936735 (-50) true 20199582511804567 (-66),
  lit false 36561299780477385 (-17) false 16217898770457546 (-33) false 11286970151961055 (-49) true 7182528731813896 (-65),
  lit false 3684668299533723 (-16) false 10463640796159268 (-33) false 20554984738517304 (-51) false 10441861305618895 (-67),
  lit false 37131719395183754 (-17) false 34749239648238266 (-35) true 7515105304286667 (-52) true 28153468438618943 (-69),
  lit false 374164062971458 (-15) false 8011410376196212 (-33) false 5342959981340605 (-49) false 10351378796539212 (-66),
  lit false 37700741021641826 (-17) true 2725530204195693 (-33) false 6364658644501814 (-50) false 8304865717650216 (-67),
  lit false 37984720892405116 (-17) false 9915130585517237 (-33) false 48761409697224886 (-50) false 14025084000776738 (-66),
  lit false 3826834323650898 (-16) true 10050772696461588 (-33) true 20605316302806695 (-50) true 12717724698085234 (-66),
  lit false 38551605384391885 (-17) false 15177665396472313 (-33) false 14198230518016535 (-49) false 5895516715990422 (-65),
  lit false 3883450466988263 (-16) true 10053770598398717 (-33) false 7594299925505713 (-49) true 31967974046654205 (-66),
  lit false 39117038430225387 (-17) false 17997787858243995 (-33) true 10613482402609856 (-49) true 5458214881779101 (-65),
  lit false 3939920400610481 (-16) false 9764924164123934 (-33) true 21233599441284617 (-50) true 5552983679534047 (-66),
  lit false 3968099874167103 (-16) false 20545063670840126 (-33) false 6134705880192284 (-49) false 10733788150636435 (-66),
  lit false 39962419984564684 (-17) true 15065497476189372 (-33) true 996532588818673 (-48) true 5752432371272538 (-65),
  lit false 40243465085941843 (-17) false 1090261933932827 (-32) false 73998528125989765 (-50) false 2274578480682347 (-65),
  lit false 40524131400498986 (-17) false 9911140194289988 (-33) true 25169070895434648 (-50) false 9277298481839648 (-68),
  lit false 4080441628649787 (-16) true 7000601513735131 (-33) true 14108207334268228 (-50) false 15175546997581244 (-68),
  lit false 41084317105790397 (-17) true 242198351903555 (-31) true 11418902925313314 (-49) true 20996843165093447 (-66),
  lit false 41363831223843456 (-17) true 10393984940597871 (-33) true 1148168117450388 (-49) true 20281052851028834 (-67),
  lit false 4164295600976372 (-16) true 25475580413131732 (-33) true 34482678506112824 (-50) false 7178861935186544 (-66),
  lit false 41921688836322396 (-17) true 4223246375011059 (-33) true 36053023045255794 (-50) false 2055456215144949 (-65),
  lit false 4220002707997997 (-16) false 4354326699412853 (-33) false 3173431027225119 (-49) true 135732479807387 (-64),
  lit false 4247796812091088 (-16) false 2746231220427728 (-32) true 4655284780211195 (-49) false 6596178109919312 (-66),
  lit false 4275550934302821 (-16) false 9411189816295473 (-33) true 174466824265988 (-48) true 22054492626479695 (-67),
  lit false 4303264813400826 (-16) false 2225968697409269 (-32) false 8597259131408508 (-49) true 29420897889002997 (-66),
  lit false 43309381885315196 (-17) false 11224283329847517 (-33) false 5322374804107566 (-50) true 5298439577667404 (-66),
  lit false 4358570799222555 (-16) false 16230515450644527 (-33) true 6437144906357944 (-50) false 37808151922300826 (-67),
  lit false 43861623853852766 (-17) true 2088331583107509 (-32) true 14259583540891877 (-50) false 6386476359065959 (-67),
  lit false 44137126873171667 (-17) false 2236078388696497 (-32) false 1186476960351577 (-49) true 3808700326618951 (-66),
  lit false 44412214457042926 (-17) true 24218874422178315 (-33) false 22205230838703907 (-50) false 9213303591135644 (-66),
  lit false 4468688401623742 (-16) true 19222136142309382 (-33) true 4442567858973205 (-50) true 13673609292149568 (-67),
  lit false 4496113296546066 (-16) false 4883192423203524 (-33) false 2715108449819138 (-49) true 1565399317161318 (-65),
  lit false 4523495872337709 (-16) true 14827977472196122 (-33) true 76947501088972324 (-50) false 1765685688203132 (-65),
  lit false 45508358712634384 (-17) true 12379906758116472 (-33) false 5528968895554264 (-49) true 8538231284020904 (-66),
  lit false 45781330359887723 (-17) true 8455425492229595 (-33) true 6377039424676426 (-49) false 31778253575564297 (-66),
  lit false 46053871095824 (-14) false 18488777492177872 (-33) true 10527732154209725 (-49) false 33235593490947117 (-66),
  lit false 4632597835518602 (-16) true 735149245332317 (-32) false 67175396881707035 (-50) false 39594127612123412 (-66),
  lit false 4659764957679662 (-16) true 33023547778235135 (-34) false 3490467705047689 (-50) true 18971438937970005 (-67),
  lit false 46868882203582796 (-17) true 22949251681845054 (-33) true 11364757641823658 (-49) false 6884052250191858 (-65),
  lit false 47139673682599764 (-17) false 6516678136069013 (-33) false 29457546966235984 (-50) true 6215971773883671 (-66),
  lit false 47410021465055 (-14) true 8145160154897808 (-33) true 34789448555614422 (-50) true 11681943974658491 (-66),
  lit false 47679923006332214 (-17) true 10293515338305794 (-33) true 3658204500836995 (-49) false 1742413147917649 (-65),
  lit false 479493757660153 (-15) false 1841999966268477 (-32) true 13040838621273312 (-49) false 10977131822246452 (-66),
  lit false 4821837720791228 (-16) true 25861500925520442 (-33) true 6291319760650001 (-51) false 40802359808682775 (-68),
  lit false 4848692480007911 (-16) true 18034004203262245 (-33) true 35244276906958044 (-50) true 17138318654749265 (-66),
  lit false 48755016014843594 (-17) false 14231090931273653 (-33) true 18277733073262697 (-50) true 15208291790429067 (-67),
  lit false 49022648328829116 (-17) true 51496145643440404 (-34) true 36903027405284104 (-50) false 1517294009515126 (-65),
  lit false 49289819222978404 (-17) true 10257831676562186 (-34) false 6952081776088507 (-50) true 2426096121409026 (-66),
  lit false 49556526182577254 (-17) true 9432324194236536 (-33) false 31212918657699143 (-51) false 42009072375238366 (-68),
  lit false 49822766697278187 (-17) true 16126383830540798 (-33) true 1509289731929887 (-48) false 11049298890895924 (-66),
  lit false 5008853826112408 (-16) true 3960401514707464 (-32) true 22208395201898007 (-49) false 13648202735839415 (-65),
  lit false 5035383837257176 (-16) true 16731308204967497 (-33) true 10140233644074786 (-49) false 4095307193767152 (-65),
  lit false 5061866453451553 (-16) true 4832159298649371 (-32) false 9285810722664225 (-49) false 4269980240103704 (-65),
  lit false 508830142543107 (-15) false 4783696826801413 (-32) true 10727022928806035 (-49) false 27309374513672715 (-66),
  lit false 5114688504379704 (-16) true 13088001221007579 (-33) false 409290333633669 (-48) true 37952190153477893 (-66),
  lit false 5141027441932218 (-16) true 45712707523615624 (-33) false 15488279442238283 (-49) true 25853959305521116 (-66),
  lit false 5167317990176499 (-16) false 8301861723383652 (-33) false 582510274676952 (-48) true 2281239719053509 (-65),
  lit false 5193559901655896 (-16) true 55331248144171145 (-33) true 31628375609769026 (-51) true 2409197205118826 (-66),
  lit false 5219752929371544 (-16) true 4655579569208888 (-32) false 4637898093685043 (-49) true 33470542934689544 (-67),
  lit false 524589682678469 (-15) true 43068869040082345 (-33) true 42013155291932055 (-50) true 15096069926700272 (-66),
  lit false 5271991347819014 (-16) true 4220298348056062 (-32) false 855859161848673 (-48) false 7997433933673227 (-65),
  lit false 5298036246862947 (-16) true 4806784170648234 (-32) false 583097210466303 (-48) true 8974076152175692 (-66),
  lit false 532403127877198 (-15) true 41020306135800895 (-33) true 1923999637423082 (-48) true 15326987913812186 (-65),
  lit false 5349976198870973 (-16) true 53683132708358134 (-33) true 13900569918838112 (-49) false 27154084726474073 (-66),
  lit false 5375870762956455 (-16) true 22617365388403054 (-33) true 59787279033447075 (-50) false 31204419729043204 (-67),
  lit false 5401714727298929 (-16) false 2707244796593584 (-32) false 1169879970921383 (-48) true 5909466851588148 (-65),
  lit false 5427507848645159 (-16) false 171482610047571 (-31) true 1352590592520087 (-48) false 4972441129072729 (-65),
  lit false 5453249884220465 (-16) true 4151781753838426 (-32) true 1531893021938594 (-48) false 6362992110141397 (-65),
  lit false 5478940591731002 (-16) true 24065878297113363 (-33) true 35639213669362606 (-52) true 26013270854276044 (-68),
  lit false 5504579729366048 (-16) true 8331990301580766 (-33) true 23058454035767638 (-50) false 21152944929106175 (-66),
  lit false 5530167055800276 (-16) true 47061536623798204 (-33) true 10617111545918056 (-49) true 1619631614440733 (-65),
  lit false 5555702330196022 (-16) false 4709410940561677 (-32) true 2064052038368292 (-48) false 12290163188567138 (-65),
  lit false 5581185312205561 (-16) false 13481176324765226 (-33) true 5501674387301144 (-49) true 23484822739335397 (-66),
  lit false 560661576197336 (-15) true 7395641815347615 (-33) false 3968062061173119 (-49) false 3199595220083625 (-65),
  lit false 5631993440138341 (-16) false 2383577514685483 (-32) false 13511793173769814 (-50) false 9320131158124818 (-66),
  lit false 5657318107836132 (-16) true 34096079596590466 (-33) true 17073289744303546 (-49) false 891470899754045 (-64),
  lit false 5682589526701316 (-16) true 5093567364276925 (-32) true 1627435635102825 (-48) false 9818315156170268 (-66),
  lit false 5707807458869673 (-16) false 24568151455566208 (-33) true 1284448124756035 (-48) true 18037634376936246 (-66),
  lit false 5732971666980422 (-16) false 851766116693064 (-32) true 6444320878802677 (-49) false 22546105543273003 (-66),
  lit false 5758081914178453 (-16) true 37909495458942734 (-33) true 2743373804685431 (-48) false 11130841524216792 (-65),
  lit false 5783137964116556 (-16) true 2623769151237283 (-32) false 13679051680738167 (-49) true 31409808935335943 (-66),
  lit false 5808139580957645 (-16) false 18585338586613408 (-33) false 2767384311454918 (-49) false 19605349619836932 (-66),
  lit false 5833086529376983 (-16) false 3451660107904486 (-33) false 18065977478946306 (-50) true 6395395803854505 (-66),
  lit false 5857978574564389 (-16) true 3748550196431129 (-33) false 27965403775536614 (-50) true 7181693602415737 (-66),
  lit false 5882815482226453 (-16) true 29292166725006846 (-33) true 23744954603693934 (-49) true 11571631191512478 (-66),
  lit false 5907597018588743 (-16) true 4701358417065954 (-32) false 24808417611768356 (-49) false 12598907673643214 (-66),
  lit false 5932322950397998 (-16) false 12892320944189053 (-33) false 5305836477635958 (-49) false 41141674699390024 (-66),
  lit false 5956993044924334 (-16) true 13438641936579467 (-33) true 6787768790772106 (-50) false 508636508720028 (-65),
  lit false 5981607069963423 (-16) false 3880188578300066 (-32) true 12084165858094663 (-49) true 4045661084343004 (-65),
  lit false 600616479383869 (-15) true 4639819822946193 (-32) true 166734930037108 (-47) false 5198282437849149 (-65),
  lit false 6030665985403482 (-16) false 3732335768055965 (-32) false 27771920866974305 (-49) true 1619422964974246 (-64),
  lit false 6055110414043255 (-16) true 3120267249330568 (-32) false 12761267338680916 (-49) true 4085936859837968 (-65),
  lit false 6079497849677736 (-16) false 3516083236209666 (-32) true 25546242776778394 (-50) true 14085313551220675 (-66),
  lit false 6103828062763095 (-16) true 2256326564822917 (-32) false 1318557501122673 (-48) false 823166914200635 (-64),
  lit false 6128100824294097 (-16) true 42693476568409685 (-34) false 2583996588665032 (-49) false 1688441200562252 (-65),
  lit false 6152315905806268 (-16) false 2623141776726695 (-32) true 14095366621106716 (-49) false 7205869049130455 (-65),
  lit false 617647307937804 (-15) true 4747859451090245 (-32) true 72986558263124 (-47) true 3015232751743918 (-65),
  lit false 6200572117632892 (-16) true 2798341083768112 (-32) false 11649951056138923 (-49) true 5453908911713521 (-65),
  lit false 62246127937415 (-14) false 52940728606573 (-31) true 4848641121594583 (-50) false 12696527641976689 (-68),
  lit false 6248594881423863 (-16) false 336718460372439 (-31) true 27846053391012096 (-49) false 5610271812001211 (-65),
  lit false 6272518154951441 (-16) false 30763585181253225 (-33) false 2706893027349814 (-49) true 1117224030928648 (-65),
  lit false 629638238914927 (-15) false 41115334049626806 (-33) true 19167473580230747 (-49) false 1111842402816173 (-64),
  lit false 6320187359398091 (-16) true 4016494229646361 (-32) true 7220864364173672 (-49) false 3782892047054432 (-65),
  lit false 6343932841636455 (-16) false 10420901929280035 (-33) false 4117455892928049 (-49) true 1446415298663068 (-66),
  lit false 6367618612362842 (-16) false 3141904871190161 (-32) true 2269373841512645 (-48) true 16023584204297392 (-65),
  lit false 6391244448637757 (-16) false 12416796312271043 (-33) true 62095419626356605 (-50) false 2776206599950661 (-65),
  lit false 6414810128085832 (-16) true 9988343011594331 (-33) false 4196923037673013 (-49) false 5698054379925748 (-66),
  lit false 6438315428897915 (-16) true 32084798795046886 (-33) true 12595311907053305 (-49) true 4020588523084152 (-65),
  lit false 6461760129833164 (-16) true 29756137382280815 (-33) true 10275370077518259 (-49) false 8085247866589343 (-66),
  lit false 6485144010221124 (-16) false 3987027031338683 (-33) false 19408388509540788 (-50) true 5179842063619337 (-66),
  lit false 6508466849963809 (-16) false 3971467071050026 (-32) false 29178546787002963 (-50) false 3814063550829358 (-66),
  lit false 6531728429537768 (-16) false 8569564206002624 (-33) true 6916532230507063 (-49) false 23873751224185414 (-66),
  lit false 6554928529996153 (-16) false 35638734426385005 (-33) false 12695365790889811 (-49) false 4398495286541201 (-65),
  lit false 6578066932970786 (-16) false 19580943058468545 (-33) true 11944272256627192 (-49) false 2855640261643684 (-65),
  lit false 6601143420674205 (-16) true 13960054386823638 (-35) false 6151577793149405 (-51) false 53510498875626214 (-68),
  lit false 6624157775901718 (-16) true 2261550888576459 (-32) false 5017705031812686 (-49) false 29162532399530814 (-66),
  lit false 6647109782033449 (-16) true 3622779359803437 (-32) true 9060793476554043 (-49) false 3091703634238017 (-65),
  lit false 6669999223036375 (-16) false 35284364997428166 (-33) true 10382057232458238 (-49) false 7381275655016762 (-65),
  lit false 6692825883466361 (-16) true 5459265241744791 (-32) true 2518101470969515 (-48) true 1686787599943717 (-64),
  lit false 6715589548470184 (-16) true 4048903774929669 (-32) false 3199583562535568 (-49) true 14044414655670971 (-66),
  lit false 673829000378756 (-15) false 23091901236161086 (-33) false 5742803719288132 (-49) false 11240668354625932 (-66),
  lit false 6760927035753159 (-16) false 37256902248049466 (-33) false 17059417895764375 (-49) false 9732634779530067 (-65),
  lit false 6783500431298615 (-16) false 18302093041863122 (-33) false 9524167574681307 (-49) false 5032810111613354 (-65),
  lit false 680600997795453 (-15) false 28473293354522047 (-33) false 413318059772709 (-48) false 4257903051074859 (-65),
  lit false 6828455463852481 (-16) true 12958058061524531 (-33) false 18292386959330698 (-50) false 34536209116044084 (-67),
  lit false 6850836677727004 (-16) false 25948135194645137 (-33) true 850307431295007 (-48) true 6957208614100993 (-65),
  lit false 6873153408917592 (-16) true 5515615871491717 (-32) false 11896489854266829 (-49) true 785058962182207 (-65),
  lit false 6895405447370669 (-16) true 1588932329480679 (-32) false 9124235624020571 (-49) false 3831545415226764 (-65),
  lit false 6917592583641577 (-16) false 27406078472410668 (-33) false 13286508943202092 (-49) false 10651869129579751 (-67),
  lit false 693971460889654 (-15) false 7434507695628014 (-33) false 7506152838819746 (-49) true 15928000240686557 (-66),
  lit false 696177131491463 (-15) true 4122408121358289 (-32) true 31838716762083296 (-51) false 13829706789724612 (-67),
  lit false 6983762494089728 (-16) false 4898828243566777 (-32) false 19134010413244152 (-49) false 26161153243794036 (-66),
  lit false 7005687939432483 (-16) false 3102796019299292 (-32) false 9563825050918 (-46) false 45896916138107285 (-67),
  lit false 7027547444572253 (-16) false 2527829438362982 (-33) true 8698556121067495 (-50) false 5001072609587458 (-66),
  lit false 7049340803759049 (-16) false 27608725585748502 (-33) false 29816599471629137 (-50) false 11533044185111213 (-66),
  lit false 7071067811865476 (-16) true 4833646656726457 (-32) false 20693376543497068 (-49) false 2467773495734176 (-65)]

/-- `COSINES` — src/quad/common.rs:1649-3186 -/
def COSINES : List Quad := [
  lit false 9999952938095762 (-16) true 1966806428532219 (-32) true 6305395509588348 (-49) false 5326611085572218 (-67),
  lit false 9999811752826011 (-16) false 33568103522895585 (-33) true 14740132559368063 (-51) false 9860309759475735 (-67),
  lit false 9999576445519639 (-16) true 3152783686664729 (-32) false 26363251186638437 (-49) false 10007504815488404 (-65),
  lit false 9999247018391445 (-16) false 3793108251266801 (-32) true 8509991866050148 (-50) true 49956973223295165 (-67),
  lit false 9998823474542126 (-16) true 3547781487240854 (-32) false 17102001035303974 (-49) true 10725388519026538 (-65),
  lit false 9998305817958234 (-16) false 1882514051755112 (-32) true 5138351345761694 (-49) true 38378827995403777 (-66),
  lit false 9997694053512153 (-16) false 4268117703228901 (-32) false 190623023597371 (-47) true 6022115326288111 (-65),
  lit false 9996988186962042 (-16) true 2985148640379975 (-32) true 19084787370733737 (-49) false 5598026034402892 (-66),
  lit false 9996188224951786 (-16) true 41181965521424734 (-33) false 20915365593699916 (-49) false 81403390920903705 (-66),
  lit false 9995294175010931 (-16) false 2051791782375559 (-32) true 4767380258570652 (-49) true 29443604198656734 (-66),
  lit false 9994306045554617 (-16) false 396444977522578 (-31) true 2375722371672243 (-49) true 12856759011361572 (-67),
  lit false 9993223845883495 (-16) true 4285853844084568 (-32) false 33235101605146565 (-50) true 8355427237705765 (-66),
  lit false 9992047586183639 (-16) false 917963171103857 (-32) false 5541620818586857 (-49) false 8026704671761995 (-67),
  lit false 9990777277526454 (-16) false 21419007653587032 (-33) true 7904820331852962 (-49) true 5316629618111275 (-65),
  lit false 9989412931868569 (-16) true 2061064191005864 (-32) true 12546525485913485 (-49) true 7517588880615705 (-65),
  lit false 9987954562051724 (-16) true 12291693337075465 (-33) false 2446844678649127 (-49) false 10723891085210282 (-66),
  lit false 9986402181802653 (-16) true 486902543129233 (-31) true 29470881967909147 (-50) true 13000650761346857 (-66),
  lit false 9984755805732948 (-16) true 22002931182778795 (-33) true 12371509454944992 (-49) true 24911225131232046 (-66),
  lit false 9983015449338929 (-16) true 5186940270279228 (-32) false 10480195493633452 (-49) true 28995649143155554 (-66),
  lit false 9981181129001492 (-16) false 2793548755811383 (-32) false 24423341255830345 (-49) true 6764669917533444 (-65),
  lit false 997925286198596 (-15) false 17143659778886362 (-33) false 5788584090288746 (-49) true 9260143260389495 (-66),
  lit false 9977230666441916 (-16) true 2639447527489872 (-32) true 16176223087661783 (-50) true 9992494288936241 (-66),
  lit false 9975114561403035 (-16) false 5600720591980694 (-33) true 5947767351468569 (-50) true 14166807162473617 (-70),
  lit false 9972904566786902 (-16) false 9164769537110173 (-33) false 678241343097393 (-48) true 8619139279553858 (-67),
  lit false 997060070339483 (-15) false 16734093546241963 (-33) true 13169951440780028 (-49) false 10311048767952451 (-66),
  lit false 9968202992911657 (-16) false 47062820708615655 (-33) false 28412041076474937 (-49) true 8000615567026358 (-65),
  lit false 9965711457905548 (-16) false 11707179088390986 (-33) true 7593441326302466 (-49) false 28474848436925975 (-66),
  lit false 996312612182778 (-15) false 11336497891624735 (-33) false 3400245867441436 (-49) false 7741907592154426 (-67),
  lit false 996044700901252 (-15) false 22870031707670695 (-33) true 3918483940501315 (-49) true 37081260416246323 (-66),
  lit false 9957674144676598 (-16) true 2315190832309436 (-32) true 16306512931944591 (-50) true 1592542078386364 (-66),
  lit false 9954807554919269 (-16) false 32084621412226554 (-34) true 4950129214601302 (-51) true 27811428850873264 (-68),
  lit false 9951847266721969 (-16) true 4248691367830441 (-32) false 13315510772504614 (-49) false 6792798741705191 (-65),
  lit false 9948793307948056 (-16) false 4213081328494366 (-33) true 4206259748828845 (-50) false 25157064556087756 (-67),
  lit false 9945645707342554 (-16) false 3674506964152806 (-32) true 3060330410547101 (-48) false 10397872280487526 (-65),
  lit false 9942404494531879 (-16) false 44129423472462673 (-33) true 30107231708238066 (-49) false 7420158290686193 (-65),
  lit false 9939069700023561 (-16) true 18964849471123746 (-33) true 15980853777937752 (-51) true 8537480715059655 (-67),
  lit false 9935641355205953 (-16) false 2975230992779743 (-32) true 4506670733113423 (-49) true 3354819163380503 (-65),
  lit false 9932119492347945 (-16) false 3309690626127226 (-32) false 15592811973249567 (-49) false 14373977733253573 (-66),
  lit false 9928504144598651 (-16) true 14094517733693302 (-33) true 11954558131616916 (-49) false 18761873742867948 (-66),
  lit false 99247953459871 (-14) false 31093055095428906 (-33) true 1837959475781802 (-48) true 39885758559381824 (-67),
  lit false 9920993131421918 (-16) true 3943192614958878 (-32) true 6275806291104723 (-49) true 1296092955921242 (-65),
  lit false 9917097536690995 (-16) true 2337289131188366 (-33) false 2707329882496859 (-50) true 12569459441802728 (-67),
  lit false 9913108598461154 (-16) true 25192111583372105 (-33) true 12852471567380887 (-49) false 5238521258431044 (-65),
  lit false 99090263542778 (-14) false 15394565094566704 (-33) true 10799984133184567 (-49) false 2745111596013394 (-66),
  lit false 9904850842564571 (-16) true 55411437553780867 (-33) true 14614017210753585 (-49) true 38339374397387644 (-66),
  lit false 9900582102622971 (-16) true 17055485906233963 (-33) false 13454939685758777 (-49) false 7311758913730006 (-65),
  lit false 9896220174632009 (-16) true 5239821796813253 (-32) false 1346318921145622 (-48) false 5802164055489491 (-65),
  lit false 989176509964781 (-15) true 4098730993704711 (-32) true 4485756055204844 (-49) true 3941450450287111 (-65),
  lit false 9887216919603238 (-16) true 10976227206656125 (-33) false 32311342577653764 (-50) false 9636794658357516 (-66),
  lit false 9882575677307495 (-16) false 2703060778437263 (-32) false 7751486648860138 (-50) false 21019644956865235 (-67),
  lit false 9877841416445722 (-16) true 2360069339715902 (-32) true 1232328376970786 (-48) false 3013090071680331 (-65),
  lit false 9873014181578584 (-16) true 5233226125571565 (-32) true 27937644333152473 (-49) false 12074160567958412 (-65),
  lit false 9868094018141855 (-16) true 50287214351061075 (-33) true 2268152623814446 (-48) false 44003694320169095 (-66),
  lit false 9863080972445987 (-16) true 2152087710301334 (-32) false 11866528054187716 (-49) true 7853219919981384 (-65),
  lit false 9857975091675675 (-16) true 5143945297995301 (-32) false 26276439309996725 (-49) false 7542355278328632 (-65),
  lit false 9852776423889412 (-16) false 23155637027900207 (-33) true 7527597154576483 (-49) false 10582231660456088 (-66),
  lit false 9847485018019042 (-16) false 10548144061829957 (-33) false 28786145266267306 (-50) true 36782210081466076 (-67),
  lit false 984210092386929 (-15) false 4798392262705069 (-32) false 22597419645070588 (-50) false 17573875814863422 (-66),
  lit false 9836624192117303 (-16) false 19864948201635255 (-33) true 10743046281211033 (-51) false 1797566279655703 (-67),
  lit false 9831054874312163 (-16) false 4217000752288863 (-32) false 823962656564409 (-48) true 8080370013909653 (-65),
  lit false 9825393022874412 (-16) false 15149580813777224 (-33) true 4180277142218624 (-49) true 221501743262262 (-64),
  lit false 9819638691095552 (-16) false 21108443711513084 (-33) true 15253013442896054 (-49) true 6838808207933793 (-65),
  lit false 9813791933137546 (-16) false 13428163260355633 (-33) true 6529429046996299 (-49) false 2796541228745605 (-66),
  lit false 9807852804032304 (-16) false 18546939997825006 (-33) true 10696564445530757 (-49) false 6666817447526491 (-65),
  lit false 9801821359681174 (-16) true 3680178696385616 (-32) false 6324517138799284 (-49) false 18600176137175948 (-66),
  lit false 9795697656854405 (-16) false 1557399158499042 (-32) true 1340106602978299 (-48) true 1726370219986218 (-65),
  lit false 9789481753190622 (-16) true 23817727961148053 (-34) true 10694750370381661 (-50) true 8229304719608728 (-66),
  lit false 9783173707196277 (-16) true 21623082233344895 (-33) false 10970403012028032 (-49) false 7709192309936935 (-65),
  lit false 9776773578245099 (-16) false 5051413616705963 (-32) true 13254751701428788 (-49) false 701612543121245 (-64),
  lit false 9770281426577544 (-16) true 43353875751555997 (-33) false 5494883983153548 (-49) true 9275526310537764 (-66),
  lit false 9763697313300211 (-16) false 9309393152621378 (-33) true 41184949155685665 (-50) true 3191392603139366 (-65),
  lit false 9757021300385286 (-16) true 25572556081259686 (-33) true 9317424450894222 (-49) true 8367586321164737 (-66),
  lit false 9750253450669941 (-16) false 26642660651899135 (-33) false 17819392739353853 (-50) true 3315962538564879 (-66),
  lit false 9743393827855759 (-16) false 23041221476151512 (-34) false 1075868600503143 (-49) false 5107411643280983 (-66),
  lit false 973644249650812 (-15) true 5172980869100587 (-32) true 15508473005989887 (-49) true 16505125917675405 (-65),
  lit false 9729399522055602 (-16) true 313112111222818 (-31) true 2687408778900614 (-48) true 21652434818822018 (-67),
  lit false 9722264970789363 (-16) false 3646116978593822 (-32) false 30309636883883133 (-49) true 12702716907967761 (-67),
  lit false 9715038909862518 (-16) true 7986542112228905 (-33) true 4362841721126338 (-49) false 34307517798758936 (-67),
  lit false 9707721407289504 (-16) true 4799216332511492 (-32) false 30347528910975783 (-49) false 859891995064797 (-64),
  lit false 970031253194544 (-15) false 18365300348428844 (-33) true 14311097571944918 (-49) false 8584678199874089 (-66),
  lit false 9692812353565485 (-16) true 45663660261927896 (-33) false 9614752691723939 (-49) false 8126760520787177 (-66),
  lit false 9685220942744173 (-16) false 4947507491824477 (-32) false 2855873835191124 (-48) false 6294842231650748 (-65),
  lit false 9677538370934755 (-16) true 4551213282551582 (-32) true 14127617988719093 (-49) true 8462060908970456 (-65),
  lit false 9669764710448521 (-16) false 38496228837337864 (-33) true 5388163154274565 (-49) true 3522186317145893 (-65),
  lit false 9661900034454125 (-16) false 5129884040166549 (-32) false 14564075904769808 (-50) false 10095973971377442 (-66),
  lit false 9653944416976894 (-16) true 23745389918392156 (-33) false 5922151559005386 (-49) true 38811192556231103 (-66),
  lit false 9645897932898128 (-16) true 34189470735959786 (-33) false 22982074155463522 (-49) true 4512879104560768 (-65),
  lit false 9637760657954398 (-16) false 2646395056122003 (-32) true 29073234590199323 (-52) true 12938328629395878 (-68),
  lit false 9629532668736839 (-16) false 8934196040431363 (-33) true 39071244661020126 (-50) false 16212091116847368 (-66),
  lit false 9621214042690416 (-16) false 15236770453846305 (-33) true 13050173525597142 (-49) false 79016122394092685 (-66),
  lit false 9612804858113206 (-16) false 2093395521667404 (-33) false 10768607469015692 (-50) true 5945363930436221 (-66),
  lit false 9604305194155658 (-16) false 24653904815317185 (-33) true 13792169410906322 (-49) true 4772659837850652 (-66),
  lit false 9595715130819845 (-16) false 11000640085000957 (-33) true 42036030828223975 (-50) false 4002370484260642 (-66),
  lit false 9587034748958716 (-16) true 43685014392372053 (-33) false 2200180066272913 (-48) true 10553721324358075 (-65),
  lit false 9578264130275329 (-16) true 17696710075371263 (-33) false 1916403411038219 (-49) false 8148923507175447 (-66),
  lit false 9569403357322088 (-16) false 405538698618757 (-31) true 1714701336430215 (-48) false 2573674529532947 (-65),
  lit false 9560452513499964 (-16) false 3770504527958907 (-32) false 1967869999734757 (-48) false 8509317773123018 (-65),
  lit false 9551411683057707 (-16) false 5008865295501467 (-32) true 2698318183805921 (-48) false 10102323575596497 (-65),
  lit false 9542280951091057 (-16) true 37545901690626874 (-33) false 14951619241257764 (-49) true 8271733315139502 (-65),
  lit false 9533060403541939 (-16) true 25190738779919934 (-33) true 14272239821134379 (-49) true 4671728680928317 (-65),
  lit false 9523750127197659 (-16) true 20269300462299272 (-33) true 10635956887246246 (-49) true 35514537666487615 (-66),
  lit false 9514350209690083 (-16) false 31350584123266695 (-33) true 24824833452737813 (-49) false 9545033552538072 (-66),
  lit false 9504860739494817 (-16) false 19410097562630436 (-33) true 8155939394981679 (-49) true 10501209720164549 (-66),
  lit false 9495281805930367 (-16) true 755441519280433 (-32) true 51260245024046686 (-50) false 18093643389040408 (-66),
  lit false 9485613499157303 (-16) false 20668262262333232 (-33) true 5944073024366731 (-49) false 14268853111554324 (-66),
  lit false 9475855910177411 (-16) false 4341799385212599 (-32) true 27728667889840373 (-50) false 5570916019652006 (-66),
  lit false 9466009130832835 (-16) false 3505680021068073 (-32) false 9857853694031812 (-49) false 66035911064585235 (-66),
  lit false 9456073253805213 (-16) false 4601910247852374 (-32) true 6253438476945206 (-49) false 15758941215779988 (-66),
  lit false 9446048372614803 (-16) false 8810054547664117 (-33) false 5229169560275784 (-49) true 33487256018407157 (-66),
  lit false 9435934581619604 (-16) true 24093127844404214 (-33) false 1028327985680394 (-49) true 23398232614530868 (-67),
  lit false 9425731976014469 (-16) false 13235564806436886 (-33) true 5704826288538691 (-50) false 3994705044275339 (-66),
  lit false 9415440651830208 (-16) true 2789637954769834 (-32) false 162732363567339 (-47) true 53075944708470906 (-67),
  lit false 9405060705932683 (-16) false 2861042156711627 (-32) false 29261501147538827 (-49) true 268498676908969 (-64),
  lit false 9394592236021899 (-16) true 7015286794309865 (-33) true 5639569381801121 (-49) false 355681426789876 (-64),
  lit false 9384035340631081 (-16) false 5424254504479549 (-32) true 1903996660785976 (-48) true 15627792988341221 (-65),
  lit false 937339011912575 (-15) true 36570926284362776 (-33) true 11902940071273247 (-49) true 11215082331583266 (-66),
  lit false 9362656671702783 (-16) true 13013766145497654 (-33) false 52229870061990595 (-50) true 33972777075633675 (-67),
  lit false 9351835099389476 (-16) true 32609395302485065 (-33) true 8181301521887525 (-49) false 5564214002492817 (-65),
  lit false 9340925504042589 (-16) false 4466282436076751 (-32) true 25903243047396916 (-49) false 8150520900434308 (-65),
  lit false 9329927988347388 (-16) false 42041415555384355 (-33) false 9028589649552128 (-49) false 5301998497766128 (-65),
  lit false 9318842655816681 (-16) true 40785944377318095 (-33) false 1763145029875417 (-48) false 257764033055074 (-64),
  lit false 9307669610789837 (-16) false 1970377510283833 (-32) false 65657908718278205 (-50) true 19480347966259367 (-67),
  lit false 9296408958431812 (-16) false 5128253001686411 (-32) false 2371973989191626 (-49) true 17230065426917108 (-66),
  lit false 9285060804732156 (-16) true 23306639848485943 (-33) true 777990843332085 (-48) true 5859755800930029 (-65),
  lit false 9273625256504011 (-16) true 27677111692155437 (-33) false 22110293450199576 (-50) false 20349190819680565 (-66),
  lit false 9262102421383114 (-16) true 37303754586099054 (-33) false 20464457809993405 (-49) false 13831799631231817 (-65),
  lit false 9250492407826776 (-16) false 6052944741257616 (-33) true 8825651776027854 (-50) false 182854621223887 (-65),
  lit false 9238795325112867 (-16) false 17645047084336677 (-33) true 5044253732158682 (-49) true 4047867771682387 (-65),
  lit false 9227011283338785 (-16) false 52963798918539814 (-33) true 57135699628876685 (-50) false 3016367179721905 (-65),
  lit false 9215140393420419 (-16) false 41639843390684644 (-33) false 11891485604702356 (-49) false 20862437594380324 (-66),
  lit false 9203182767091106 (-16) true 2780688877903684 (-32) false 27011013677071274 (-49) false 11998578792455505 (-65),
  lit false 9191138516900578 (-16) true 26496484622344718 (-33) false 6540360476346192 (-49) true 2899718020118612 (-65),
  lit false 9179007756213905 (-16) true 39074579680849515 (-33) false 23004636541490264 (-49) false 39851762744443107 (-66),
  lit false 9166790599210427 (-16) true 4173397869828757 (-32) false 12094444804381172 (-49) false 493569168260978 (-64),
  lit false 9154487160882678 (-16) true 13591056692900894 (-33) false 59923027475594735 (-50) false 2140329592596286 (-65),
  lit false 9142097557035307 (-16) true 3631618252781442 (-32) true 19438819777122554 (-49) false 2834067928772836 (-65),
  lit false 9129621904283982 (-16) true 4793250522803947 (-32) true 1775355188942864 (-48) false 4060778290386794 (-66),
  lit false 9117060320054299 (-16) true 2691327317503413 (-32) true 5192810191616253 (-50) false 11338175936090927 (-67),
  lit false 9104412922580672 (-16) true 5043304167331382 (-32) false 10938746257404305 (-49) false 9537827208417024 (-66),
  lit false 9091679830905224 (-16) true 36878564091359894 (-34) false 29951330310507693 (-50) true 12225666136919918 (-66),
  lit false 9078861164876663 (-16) true 4945996430122584 (-32) true 16599682707075313 (-49) true 51925202712634725 (-66),
  lit false 9065957045149153 (-16) false 30506718955442023 (-33) true 14478836557141204 (-49) false 18906373784448763 (-66),
  lit false 9052967593181188 (-16) true 411530998268899 (-31) false 29859368705184223 (-49) false 5114529391743917 (-65),
  lit false 9039892931234433 (-16) true 6609754468748431 (-33) false 12728013034680357 (-50) true 4302609723401478 (-66),
  lit false 9026733182372588 (-16) true 19250787033961483 (-33) false 13242128993244527 (-49) true 5297103068870367 (-65),
  lit false 901348847046022 (-15) true 13524789367698682 (-33) false 6360535311588009 (-49) false 3622740065457378 (-65),
  lit false 9000158920161603 (-16) true 5063961805080227 (-32) false 10783525384031576 (-49) false 2813001632651511 (-65),
  lit false 8986744656939538 (-16) false 26316906461033013 (-33) false 3700313704779684 (-50) true 23447719900465505 (-67),
  lit false 8973245807054183 (-16) true 3639628331486729 (-32) true 23611649895474815 (-49) false 11837247047900086 (-65),
  lit false 8959662497561851 (-16) false 49025099114811813 (-33) true 19440489814795326 (-49) true 17070486667767029 (-65),
  lit false 8945994856313827 (-16) true 1751622639681492 (-32) true 13200670047246923 (-49) true 1595300988432466 (-65),
  lit false 8932243011955153 (-16) true 4116123915190891 (-33) false 25380253805716 (-47) false 42849455510515997 (-67),
  lit false 8918407093923427 (-16) false 4669022813712455 (-33) false 16150254286841982 (-50) true 3961744882072459 (-66),
  lit false 8904487232447579 (-16) false 11781931459051803 (-33) true 1334614220957193 (-49) true 9498237353073309 (-66),
  lit false 8890483558546646 (-16) true 11164514966766675 (-33) true 34797636107798736 (-50) true 15605079997040665 (-66),
  lit false 8876396204028539 (-16) false 1280509191858796 (-32) false 39948742059584464 (-51) true 14514577876506005 (-67),
  lit false 8862225301488806 (-16) true 67307369600274315 (-34) false 12385593432917413 (-50) false 20364014759133513 (-67),
  lit false 8847970984309378 (-16) true 9433146962897269 (-33) true 5710654147870144 (-49) false 18260134111907352 (-66),
  lit false 8833633386657316 (-16) false 15822643380255127 (-33) true 7892132000758825 (-49) true 14782321016179826 (-66),
  lit false 881921264348355 (-15) true 19843248405890562 (-33) true 7041211400767383 (-49) true 10636770169389118 (-66),
  lit false 8804708890521608 (-16) false 1631109660299635 (-32) true 5754136059472417 (-49) true 4012861186216998 (-65),
  lit false 8790122264286335 (-16) true 4735683729111801 (-32) false 14388771297975192 (-49) true 2908555430447914 (-65),
  lit false 8775452902072612 (-16) false 5011331184649955 (-32) false 28382769008739543 (-50) false 1555064039316411 (-65),
  lit false 8760700941954066 (-16) false 5872902423514768 (-33) false 27941144391738458 (-50) true 18536073846509857 (-66),
  lit false 8745866522781761 (-16) true 57216617730397065 (-35) true 29705811503689596 (-51) false 8738959396979377 (-67),
  lit false 8730949784182901 (-16) false 784246729901299 (-32) true 48685015839797165 (-50) true 2281557058747757 (-65),
  lit false 8715950866559511 (-16) true 5527299803855105 (-32) true 22104090204984907 (-49) true 9774976318764323 (-65),
  lit false 8700869911087115 (-16) true 4188851086854997 (-32) false 70900185861878415 (-50) false 3760025111515731 (-65),
  lit false 8685707059713409 (-16) false 27192781689782903 (-35) true 16710140396932428 (-51) true 12625514734637684 (-67),
  lit false 8670462455156926 (-16) false 30267859550930567 (-34) true 11559438782171572 (-50) true 53580556397813034 (-68),
  lit false 8655136240905691 (-16) true 637231135496289 (-32) false 23725520321746832 (-50) false 15911880348395177 (-66),
  lit false 8639728561215867 (-16) false 4148635595736161 (-32) false 22709976932210266 (-49) true 8122838565947999 (-65),
  lit false 8624239561110405 (-16) false 3700899252738313 (-32) false 5212841154270157 (-49) false 2694560008102689 (-65),
  lit false 8608669386377673 (-16) true 30050048898573656 (-33) true 8870618309089211 (-49) false 15005320558097258 (-66),
  lit false 8593018183570084 (-16) false 4243565581685069 (-32) false 76181814059912025 (-50) true 39592127850658727 (-66),
  lit false 8577286100002721 (-16) true 4818344793633662 (-32) true 11044130517687533 (-49) false 8365670800125491 (-65),
  lit false 8561473283751945 (-16) false 9180692561660626 (-33) false 5632864978595147 (-49) false 2332664611321735 (-66),
  lit false 8545579883654005 (-16) true 12991124236396092 (-33) false 1289340772294808 (-49) true 3650692574758651 (-67),
  lit false 8529606049303636 (-16) false 2715298425198137 (-32) false 7433648328312072 (-49) false 42162417622350716 (-66),
  lit false 8513551931052652 (-16) true 5327987444601621 (-32) false 2228115638091994 (-48) true 40281886404138467 (-66),
  lit false 8497417680008524 (-16) false 51812347659974015 (-33) false 30810626087331275 (-49) true 25931308201994965 (-66),
  lit false 8481203448032972 (-16) false 1876256341523998 (-32) false 14048773307919617 (-49) true 24915221509958706 (-66),
  lit false 8464909387740521 (-16) true 47969419958569345 (-33) true 27518267097886703 (-49) true 7351895972731335 (-65),
  lit false 8448535652497071 (-16) true 4363136029687964 (-32) true 20307726853367547 (-49) false 4309722981985171 (-65),
  lit false 8432082396418454 (-16) false 9653670700595908 (-34) false 28995142431556364 (-52) false 9671507681146747 (-68),
  lit false 8415549774368984 (-16) true 34095465391321557 (-33) true 841302086075796 (-48) true 4944728396056864 (-65),
  lit false 8398937941959995 (-16) true 1667369488151141 (-32) true 1475918414175029 (-48) true 7579509816191407 (-65),
  lit false 8382247055548381 (-16) true 35560085052855026 (-33) false 11689791577022643 (-49) true 5862734735972339 (-65),
  lit false 836547727223512 (-15) true 20899059027066533 (-33) true 9810409782100259 (-50) true 31609177868229444 (-67),
  lit false 83486287498638 (-14) false 4604843060915966 (-32) true 5182742326523991 (-49) true 7050534343550388 (-66),
  lit false 8331701647019132 (-16) false 13275129507229764 (-34) false 4858916411537086 (-50) false 45422281300507203 (-67),
  lit false 8314696123025452 (-16) false 14073856984728024 (-34) false 46951315383980835 (-51) true 2023388151938547 (-67),
  lit false 829761233794523 (-15) true 29349109376485597 (-34) false 11496917934149818 (-50) false 35186665544980245 (-67),
  lit false 8280450452577558 (-16) true 4419659322587153 (-32) false 2796786485521125 (-48) false 10030777287393502 (-65),
  lit false 8263210628456635 (-16) true 539574854536129 (-31) false 6897689613013855 (-49) false 38106164274199186 (-66),
  lit false 8245893027850253 (-16) true 26512360488868275 (-33) false 16916964350914386 (-50) false 676939748135625 (-65),
  lit false 8228497813758263 (-16) false 15193019034505495 (-33) false 9689054724652168 (-49) false 5699456292365327 (-65),
  lit false 8211025149911046 (-16) false 3071513160969768 (-32) true 1703716832585588 (-48) true 1114986244328385 (-64),
  lit false 819347520076797 (-15) true 48200736995191133 (-33) true 1557448964667278 (-50) true 9564785361451192 (-68),
  lit false 8175848131515837 (-16) true 14883149812426772 (-33) true 7827326277129892 (-49) false 41332149161031623 (-66),
  lit false 8158144108067338 (-16) false 8265269378213087 (-33) true 2302877813517947 (-49) false 15102071387249817 (-66),
  lit false 8140363297059484 (-16) true 52127351877042624 (-33) true 1904767061131636 (-48) true 1693726958594151 (-64),
  lit false 8122505865852039 (-16) false 310545456092148 (-31) false 2264954192270725 (-49) true 7422168415464942 (-66),
  lit false 8104571982525948 (-16) false 235203673498405 (-31) true 7753007090484634 (-49) true 727926163571971 (-64),
  lit false 808656181588175 (-15) false 9325159787972167 (-33) true 7182330193306839 (-49) false 2392544084613215 (-65),
  lit false 8068475535437992 (-16) false 49220603766095546 (-33) false 29796016899903487 (-49) false 15220754223615785 (-65),
  lit false 8050313311429635 (-16) false 5136828956821215 (-32) false 6308280740225652 (-49) false 7327764608512981 (-66),
  lit false 8032075314806449 (-16) true 3306060980481491 (-32) true 12242726252420433 (-49) false 2841367326863007 (-65),
  lit false 8013761717231402 (-16) true 20958013413495834 (-33) true 4379816219800693 (-49) false 2023569049775252 (-65),
  lit false 799537269107905 (-15) false 2035672382200543 (-32) true 9744851369689636 (-49) false 5360810959969726 (-67),
  lit false 7976908409433912 (-16) true 46730759884788944 (-33) false 23075897077191757 (-49) false 3160556777464022 (-66),
  lit false 7958369046088836 (-16) true 3006272485191072 (-32) true 22496210832042235 (-49) true 6588177411718306 (-65),
  lit false 7939754775543372 (-16) true 7419463175992142 (-33) false 2412434130463107 (-49) true 49956808616245025 (-67),
  lit false 7921065773002124 (-16) true 37087850202326467 (-33) true 14874457267228264 (-49) false 2932309728915352 (-65),
  lit false 79023022143731 (-14) false 23056905954954492 (-33) false 14481080533260193 (-49) true 7672523705720347 (-65),
  lit false 7883464276266062 (-16) false 3439699315405971 (-32) false 1771062374673717 (-48) false 17084159098417406 (-65),
  lit false 7864552135990858 (-16) true 9784142993930527 (-33) false 33906063272445472 (-50) false 5726950532038297 (-66),
  lit false 7845565971555752 (-16) true 8562796542317348 (-33) true 2110683445900185 (-49) true 1689032218246961 (-65),
  lit false 7826505961665757 (-16) false 9074586697580882 (-33) false 6762384740427867 (-49) true 17173237731987254 (-66),
  lit false 7807372285720945 (-16) true 991987820666788 (-32) true 21265794012162715 (-52) false 30772165599031686 (-70),
  lit false 778816512381476 (-15) true 24891385579973807 (-33) false 6766549702480798 (-50) true 6521859428169817 (-67),
  lit false 7768884656732324 (-16) false 7741860257067286 (-33) true 599865178721579 (-48) false 30566548232958976 (-66),
  lit false 7749531065948739 (-16) true 5220908318982643 (-32) true 9665359339368661 (-49) false 37027750076562617 (-66),
  lit false 773010453362737 (-15) true 3256590703364977 (-32) false 1386080725152393 (-48) true 3997132991758601 (-65),
  lit false 7710605242618138 (-16) true 44558442347769265 (-33) true 29863565614083783 (-49) true 6879526208359629 (-65),
  lit false 7691033376455796 (-16) false 51546455184564817 (-33) false 2614282955352429 (-48) true 16199023632773295 (-65),
  lit false 7671389119358204 (-16) true 18885903683750782 (-33) true 13659359331495433 (-49) true 22538834962921967 (-66),
  lit false 765167265622459 (-15) true 327072256125346 (-31) false 11177117747079528 (-49) true 3700518228017568 (-65),
  lit false 7631884172633813 (-16) false 2631474841675075 (-33) false 1404803906309591 (-49) false 8960188662663182 (-67),
  lit false 7612023854842618 (-16) false 3531551088169055 (-32) false 12833566381864359 (-49) true 8483550626500987 (-65),
  lit false 7592091889783881 (-16) true 3855884217552312 (-32) false 2972024120833276 (-49) true 12521388928220154 (-66),
  lit false 7572088465064846 (-16) true 19909098777335502 (-33) false 3940928326615848 (-49) false 20744254207803002 (-66),
  lit false 7552013768965365 (-16) true 19402238001823017 (-33) true 37756206444727573 (-50) true 21212242308178273 (-66),
  lit false 7531867990436125 (-16) true 3793778983873654 (-32) true 6700953992023156 (-49) true 6712856211505067 (-66),
  lit false 7511651319096864 (-16) false 4349976115864587 (-32) false 25227718971102212 (-49) true 6596970921275714 (-65),
  lit false 7491363945234594 (-16) true 4472907844701189 (-32) true 24206025249983768 (-49) false 11336681351116422 (-65),
  lit false 7471006059801801 (-16) false 1187482487596543 (-32) false 21992523849833518 (-50) false 11025018564644497 (-66),
  lit false 745057785441466 (-15) false 15078686911877863 (-33) false 8089898721294247 (-49) false 8267795876532348 (-65),
  lit false 7430079521351217 (-16) true 25144629669719265 (-33) false 7112898951252616 (-49) false 3018162907782123 (-65),
  lit false 7409511253549591 (-16) true 14708616952297345 (-33) true 4955043382714203 (-49) false 31434132533735623 (-66),
  lit false 7388873244606151 (-16) false 3432487480822509 (-32) true 1370663944471761 (-48) true 33520827530719466 (-67),
  lit false 7368165688773699 (-16) true 28932468101656295 (-33) true 3464988712620238 (-49) true 18484474476291473 (-66),
  lit false 7347388780959635 (-16) true 3450759597626394 (-32) true 2371800067666641 (-48) true 39696090387165364 (-66),
  lit false 7326542716724128 (-16) false 1891867348157352 (-32) true 15123719544119886 (-49) true 9792215201162556 (-66),
  lit false 7305627692278276 (-16) true 2968995990447693 (-32) true 11276871244239744 (-49) true 30531520961538974 (-66),
  lit false 7284643904482252 (-16) false 11924642323370718 (-35) false 5900189231661101 (-51) false 12178089069507088 (-68),
  lit false 726359155084346 (-15) true 3191750244346054 (-32) false 770479124120394 (-48) false 41455880160182123 (-66),
  lit false 7242470829514669 (-16) false 29198471334403004 (-33) false 23027324968739464 (-49) true 12928820533891935 (-67),
  lit false 7221281939292153 (-16) true 23871262053452047 (-33) false 10636125432862273 (-49) true 44598638837802555 (-66),
  lit false 7200025079613817 (-16) true 25689658854462333 (-33) true 9149256694856793 (-49) false 4440378080126777 (-65),
  lit false 7178700450557317 (-16) false 27006476062511453 (-33) true 2285495658021535 (-49) false 9172690389028812 (-66),
  lit false 7157308252838187 (-16) true 5158101847641026 (-32) true 13736271349300261 (-50) false 8647506336626293 (-66),
  lit false 7135848687807936 (-16) true 42342504403133584 (-33) true 4269036610161727 (-49) true 26352370883066546 (-66),
  lit false 7114321957452164 (-16) false 7964329861385681 (-33) false 2948823951072147 (-49) false 16985236437666341 (-66),
  lit false 7092728264388657 (-16) true 3759735911024573 (-32) false 1061312595464512 (-49) false 8946548018548639 (-66),
  lit false 7071067811865476 (-16) true 4833646656726457 (-32) false 20693376543497068 (-49) false 2467773495734176 (-65)]

end Quad

end Verif
