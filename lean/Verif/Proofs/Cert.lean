import Verif.Model.Table
/-
Generated by tools/gen_cert.py.  Certificates for the product of a 64-bit word with a table entry: checked by the kernel in
`Verif.Proofs.TableFacts`, not trusted.
-/
namespace FastFloat

/-- `(q, w1, p1, w2, p2)`; for `-27 <= q < 0` the second component is the inverse of the odd high word modulo `2^73`. -/
structure Cert where
  q : Int
  w1 : Nat
  p1 : Nat
  w2 : Nat
  p2 : Nat

set_option maxRecDepth 20000 in
/-- One certificate per table entry. -/
def certs : List Cert := [
  ⟨-342, 12770164887588248800, 23280999321973471, 8401500023913039231, 15316585030972091⟩,
  ⟨-341, 20432263820141198080, 23280999321973471, 5847467046395389471, 6662740729110873⟩,
  ⟨-340, 16345811056112958464, 23280999321973471, 9933919810423629087, 14148675741881959⟩,
  ⟨-339, 24870919440642867667, 44278917748924064, 9229514097476769145, 16431756636904837⟩,
  ⟨-338, 10103696884680037035, 11242566956172703, 14767222555962830632, 16431756636904837⟩,
  ⟨-337, 8082957507744029628, 11242566956172703, 16787961932898838039, 23350337535174222⟩,
  ⟨-336, 6590775389677379459, 11458867861879907, 20394373086442917160, 35458108114175741⟩,
  ⟨-335, 15693451551743554945, 17053113726752858, 5645848462188370837, 6134998129140961⟩,
  ⟨-334, 6277380620697421978, 8526556863376429, 20707767855422874641, 28127330617917046⟩,
  ⟨-333, 18587117191567263364, 31558567425717957, 1630601322805606137, 2768554222791047⟩,
  ⟨-332, 18783136927987265420, 19932115047045549, 7956986877608028629, 8443721540250196⟩,
  ⟨-331, 22983496419997840965, 30486766972358294, 7956986877608028629, 10554651925312745⟩,
  ⟨-330, 9193398567999136386, 15243383486179147, 20510673039215625451, 34008321556371436⟩,
  ⟨-329, 11456853462242434199, 11872731937636003, 29564492616188816703, 30637670007828292⟩,
  ⟨-328, 18923235509462499415, 24512675244672793, 2660314276681579322, 3446103066278143⟩,
  ⟨-327, 21583549786144078737, 34948472888688670, 6444961378574079205, 10435797644015877⟩,
  ⟨-326, 24161534337573710419, 24451744966434388, 10311938205718526728, 10435797644015877⟩,
  ⟨-325, 6247370037969404869, 7903011080809914, 17914164299604305550, 22661670127233071⟩,
  ⟨-324, 13413035757811127089, 21209598914628928, 14331331439683444440, 22661670127233071⟩,
  ⟨-323, 13413035757811127089, 13255999321643080, 9517094545682384015, 9405670805589991⟩,
  ⟨-322, 13413035757811127089, 16569999152053850, 7613675636545907212, 9405670805589991⟩,
  ⟨-321, 18480220145331092437, 28537278740159366, 362863103056137467, 560335614781533⟩,
  ⟨-320, 10875573847471356658, 20992666747458079, 27914660824790666579, 53882505905599030⟩,
  ⟨-319, 19866323407893351958, 23966959850128797, 6163513129847953263, 7435732756676795⟩,
  ⟨-318, 5481124111218159478, 8265613546726001, 20548712426523145743, 30987752211780989⟩,
  ⟨-317, 18910978781811640659, 35647533067366258, 3013517663060997253, 5680534666263747⟩,
  ⟨-316, 4987602821586727033, 5876075299986719, 19120538482901250991, 22526598031332016⟩,
  ⟨-315, 8146139075227894681, 11996576392127153, 11804272211119013451, 17383800107806442⟩,
  ⟨-314, 10341018956762565943, 19036138276918408, 23608544422238026902, 43459500269516105⟩,
  ⟨-313, 10341018956762565943, 11897586423074005, 23296244536113250723, 26802879277212498⟩,
  ⟨-312, 7749973840892428987, 11145659815307883, 18114154304372976811, 26050952669446376⟩,
  ⟨-311, 13445640794463133914, 24171136150031071, 31559795098836110725, 56734826986839041⟩,
  ⟨-310, 23044490833945114555, 25891826855362936, 5490236264838532521, 6168600026295221⟩,
  ⟨-309, 4608898166789022911, 6472956713840734, 21960945059354130084, 30843000131476105⟩,
  ⟨-308, 9217796333578045822, 16182391784601835, 15236835457246284109, 26749174314959337⟩,
  ⟨-307, 19715095551120014658, 21631892044313377, 7298542007632161301, 8008141395034522⟩,
  ⟨-306, 6426329818921573603, 8813910673398058, 14597084015264322602, 20020353487586305⟩,
  ⟨-305, 16818731067348716964, 28834264160984363, 1983035714752784879, 3399743738744609⟩,
  ⟨-304, 11868556282076745668, 12717260211119877, 12867488641063129009, 13787624831770669⟩,
  ⟨-303, 9095272082066843198, 12182077900794481, 10094204441053226539, 13520033676607971⟩,
  ⟨-302, 15751154162090609126, 26371089465309197, 12312831801061148515, 20614539458865329⟩,
  ⟨-301, 13288587801878379423, 13905113483460082, 6411943079819458201, 6709425975405247⟩,
  ⟨-300, 21354680811453299681, 27931792350082561, 5222494792303459165, 6830991358567644⟩,
  ⟨-299, 18570789904328921412, 30363100013330501, 1044498958460691833, 1707747839641911⟩,
  ⟨-298, 24813036941771759309, 25355703977145439, 8355991667685534664, 8538739198209555⟩,
  ⟨-297, 3291409054817244929, 4204241194733971, 20258330451473158940, 25876731212111891⟩,
  ⟨-296, 13165636219268979716, 21021205973669855, 13925893254746366575, 22235087283280364⟩,
  ⟨-295, 22025579716633912399, 21979769919664137, 5570357301898546630, 5558771820820091⟩,
  ⟨-294, 18683365335494784421, 23305633533965103, 4456285841518837304, 5558771820820091⟩,
  ⟨-293, 13540501918440398953, 21113030890746526, 17825143366075349216, 27793859104100455⟩,
  ⟨-292, 9838157730118219477, 19175187274736859, 22109784813710299479, 43093359146817980⟩,
  ⟨-291, 19189621589541666849, 23376111018753041, 1946775482779088420, 2371492298672131⟩,
  ⟨-290, 19578976686097484533, 29813011848109334, 1557420386223270736, 2371492298672131⟩,
  ⟨-289, 21002899405359748262, 39976533174819739, 4538763491708805201, 8638999111363399⟩,
  ⟨-288, 6923837976097232773, 8236691313613742, 22462431981475976062, 26721612929589511⟩,
  ⟨-287, 13847675952194465546, 20591728284034355, 4830670006932050761, 7183287979584449⟩,
  ⟨-286, 3606802378104965914, 6704220152224953, 18678345959126516307, 34718770329523505⟩,
  ⟨-285, 8785192521172255541, 10206038924387272, 23856736102193805934, 27715132785198867⟩,
  ⟨-284, 8785192521172255541, 12757548655484090, 26113542898692849180, 37921171709586139⟩,
  ⟨-283, 19230609680649395213, 34907521674148182, 1660224638304884131, 3013650035437957⟩,
  ⟨-282, 22799897225175588512, 25866571567834311, 4510211791451832695, 5116852718128012⟩,
  ⟨-281, 19036200237473030928, 26995803476611315, 902042358290366539, 1279213179532003⟩,
  ⟨-280, 18781143195114690733, 33292624344441891, 3608169433161466156, 6396065897660015⟩,
  ⟨-279, 17615331690897981530, 19516271407015499, 5625011887196873859, 6232029040642288⟩,
  ⟨-278, 14092265352718385224, 19516271407015499, 5625011887196873859, 7790036300802860⟩,
  ⟨-277, 12398814659614082951, 21463780482216214, 30422641206425039761, 52665106340436003⟩,
  ⟨-276, 19608345278338465675, 21215194265940081, 9229777196559065221, 9986131592279708⟩,
  ⟨-275, 15686676222670772540, 21215194265940081, 9229777196559065221, 12482664490349635⟩,
  ⟨-274, 12549340978136618032, 21215194265940081, 12367112441093219729, 20907129179422064⟩,
  ⟨-273, 10185255612144013068, 10761629676229049, 22552368053237232797, 23828585413367839⟩,
  ⟨-272, 6547524733076249173, 8647553772399222, 24734224882186439458, 32667389342846975⟩,
  ⟨-271, 13095049466152498346, 21618884430998055, 26917254258872823633, 44438244431720959⟩,
  ⟨-270, 9894315311667737124, 10209204430636603, 13822204792720325287, 14262100000451815⟩,
  ⟨-269, 26888668332844639628, 34680508861725021, 10272185937965742597, 13248876107998012⟩,
  ⟨-268, 9184311540716820586, 14807194699728003, 10272185937965742597, 16561095134997515⟩,
  ⟨-267, 15130048224046481742, 15245669808545381, 16217922621295403753, 16341857580588826⟩,
  ⟨-266, 21399642393114858841, 26953969107965278, 3678734283158649555, 4633558281168929⟩,
  ⟨-265, 19928148679851399019, 31375682244372133, 2942987426526919644, 4633558281168929⟩,
  ⟨-264, 6794064501329791750, 6685530990800801, 21963046458102366201, 21612192189123524⟩,
  ⟨-263, 5435251601063833400, 6685530990800801, 21963046458102366201, 27015240236404405⟩,
  ⟨-262, 4348201280851066720, 6685530990800801, 20875996137889599521, 32097667547805306⟩,
  ⟨-261, 3478561024680853376, 6685530990800801, 19136715625549172833, 36779318939356232⟩,
  ⟨-260, 1738354514379530835, 2088116123381272, 19136715625549172833, 22987074337097645⟩,
  ⟨-259, 347670902875906167, 522029030845318, 18485821721920361443, 27756523534320119⟩,
  ⟨-258, 695341805751812334, 1305072577113295, 19006536844823410555, 35672973804952086⟩,
  ⟨-257, 7973358203475556115, 9353143889793867, 26330698367887725788, 30887212673608993⟩,
  ⟨-256, 6378686562780444892, 9353143889793867, 21546683445802392119, 31594157924665841⟩,
  ⟨-255, 16273097253657490718, 29826794797023721, 11652272754925346293, 21357332471050914⟩,
  ⟨-254, 7393319197971431080, 8469462325972807, 13500602554418204063, 15465698375900023⟩,
  ⟨-253, 29958532788024980558, 42898977102736461, 12021938714823917847, 17214757388381827⟩,
  ⟨-252, 19080999545262566060, 34153682040327441, 8396094300569779681, 15028433622779572⟩,
  ⟨-251, 6868705335640273167, 7684070005926488, 16792188601139559362, 18785542028474465⟩,
  ⟨-250, 14807491948039702123, 20706559529956087, 7938786612399428956, 11101472022547977⟩,
  ⟨-249, 19142731404775697181, 33461111171786158, 1801773577831716949, 3149464134421961⟩,
  ⟨-248, 10764929411732731529, 11760550655814319, 22746278560439131079, 24850024650393800⟩,
  ⟨-247, 13161199241474011439, 17973056818412769, 9585079318965119640, 13089473994579481⟩,
  ⟨-246, 11244183377680987511, 19193952524371091, 7668063455172095712, 13089473994579481⟩,
  ⟨-245, 19008482485169687046, 20279813689320863, 2352001397567059925, 2509308682420919⟩,
  ⟨-244, 18538082205656275061, 24722439941045849, 1881601118053647940, 2509308682420919⟩,
  ⟨-243, 18914402429267004649, 31530377096912541, 1505280894442918352, 2509308682420919⟩,
  ⟨-242, 18744196090076607764, 19529151572087649, 7696610811404988645, 8018923746048061⟩,
  ⟨-241, 23362162576919600951, 30425632274645607, 6157288649123990916, 8018923746048061⟩,
  ⟨-240, 15755552083807103839, 25648986497269539, 8873602512688859825, 14445632232970766⟩,
  ⟨-239, 22637501654925347853, 23032712975980195, 7098882010151087860, 7222816116485383⟩,
  ⟨-238, 21217725252895130281, 26985187190853898, 5679105608120870288, 7222816116485383⟩,
  ⟨-237, 1971902807330677941, 3134888739470783, 18772616817822125270, 29844303103485349⟩,
  ⟨-236, 21501648629540526523, 21364287047458823, 5726426170895102995, 5689843350104908⟩,
  ⟨-235, 19580050935778911350, 24318706660772949, 1145285234179020599, 1422460837526227⟩,
  ⟨-234, 18804718231483050057, 29194665274994426, 4581140936716082396, 7112304187631135⟩,
  ⟨-233, 1928487271610177053, 3742514224933039, 18324563746864329584, 35561520938155675⟩,
  ⟨-232, 24110025561694860743, 29243164758096745, 11380435702440633161, 13803384629925008⟩,
  ⟨-231, 26116281870820268491, 39595703230540501, 11380435702440633161, 17254230787406260⟩,
  ⟨-230, 23169112637144341425, 43909260927392066, 11380435702440633161, 21567788484257825⟩,
  ⟨-229, 408241232263075103, 483552474297760, 18127048877452398037, 21471077989398273⟩,
  ⟨-228, 29248222943281681921, 43304820334519866, 14419990855509303409, 21350189870823833⟩,
  ⟨-227, 11780937423765287789, 21803520315477983, 11372696191502212686, 21047969574387733⟩,
  ⟨-226, 23970116079793650681, 27726619607528885, 9261453446107000190, 10712872472466429⟩,
  ⟨-225, 22117825390572250643, 31980056391294499, 7409162756885600152, 10712872472466429⟩,
  ⟨-224, 5905397629491570159, 10673232215940232, 23731253398050830449, 42891130146391913⟩,
  ⟨-223, 5905397629491570159, 6670770134962645, 22615971600203246305, 25547127795489036⟩,
  ⟨-222, 19098396197925631375, 26967068725940966, 4523194320040649261, 6386781948872259⟩,
  ⟨-221, 7639358479170252550, 13483534362970483, 12866067879666424797, 22708722053665889⟩,
  ⟨-220, 12222973566672404080, 13483534362970483, 14393939575500475307, 15878393078912491⟩,
  ⟨-219, 9778378853337923264, 13483534362970483, 11949344862165994491, 16477107757897993⟩,
  ⟨-218, 4345544743100783551, 7490160530217119, 21724110990059276658, 37444575608187251⟩,
  ⟨-217, 6953594134050181901, 7490938910579412, 20857169676705904606, 22468924829926771⟩,
  ⟨-216, 6953594134050181901, 9363673638224265, 25030048702224941966, 33705333195795889⟩,
  ⟨-215, 20583794708930823578, 34647538412335513, 3615290913634952013, 6085414889392906⟩,
  ⟨-214, 10402692431753300639, 10943915186606218, 14461163654539808052, 15213537223482265⟩,
  ⟨-213, 20805384863506601278, 27359787966515545, 3703926975465263093, 4870789815089578⟩,
  ⟨-212, 10544510130681798367, 17332986344574956, 17952364081612324553, 29509960882298901⟩,
  ⟨-211, 8836031022210096765, 9077875782641114, 12252989239153499969, 12588357148077581⟩,
  ⟨-210, 3534412408884038706, 4538937891320557, 19204359864980941879, 24662486033213117⟩,
  ⟨-209, 20712088182087065763, 33248412671701648, 9095508909545992234, 14600711962266837⟩,
  ⟨-208, 2016856290396065036, 2023494373583987, 18695231891691000727, 18756763546229543⟩,
  ⟨-207, 4949160152575839167, 6206811666745376, 21627535753870774858, 27123398132552321⟩,
  ⟨-206, 4949160152575839167, 7758514583431720, 21261356725157291220, 33330209799297697⟩,
  ⟨-205, 4949160152575839167, 4849071614644825, 19170690302524148451, 18782994955363222⟩,
  ⟨-204, 19796640610303356668, 24245358073224125, 5813802121535165357, 7120284546163218⟩,
  ⟨-203, 27685583457340904881, 42383888357805739, 11627604243070330714, 17800711365408045⟩,
  ⟨-202, 24253320888458901215, 46411792550190789, 7862637540082247119, 15046149930803446⟩,
  ⟨-201, 17563965895465807605, 21006791844299851, 13886584264863180871, 16608582982708764⟩,
  ⟨-200, 14051172716372646084, 21006791844299851, 13886584264863180871, 20760728728385955⟩,
  ⟨-199, 22514794036498126777, 42075099467578176, 11175102792494330782, 20883760286342903⟩,
  ⟨-198, 22514794036498126777, 26296937167236360, 4371288046092053185, 5105597986001087⟩,
  ⟨-197, 19017763599624484229, 27765573473044363, 3497030436873642548, 5105597986001087⟩,
  ⟨-196, 20809459578697415460, 37976769445046537, 8699395331547996413, 15876189843762993⟩,
  ⟨-195, 12110064247149419047, 13812862250802215, 9075006831617026642, 10351044943442107⟩,
  ⟨-194, 607011483106478481, 865454326840027, 18696694316380230619, 26657049238849752⟩,
  ⟨-193, 18647689015711296298, 33233974136745497, 8109821541642691187, 14453351251272681⟩,
  ⟨-192, 10537867474068605111, 11737889303420510, 10868140971814584877, 12105773390588579⟩,
  ⟨-191, 21075734948137210222, 29344723258551275, 6454829883539554973, 8987359021149417⟩,
  ⟨-190, 5506112966335353039, 9583020569925173, 20313206567822866853, 35353774535821912⟩,
  ⟨-189, 12872422059701138233, 14002242386902912, 7440784508121728620, 8093866697985783⟩,
  ⟨-188, 12872422059701138233, 17502802983628640, 5952627606497382896, 8093866697985783⟩,
  ⟨-187, 12872422059701138233, 21878503729535800, 9911070909078361610, 16845268189800103⟩,
  ⟨-186, 12872422059701138233, 13674064830959875, 28730135514226516809, 30519333020759978⟩,
  ⟨-185, 10894995926725758655, 14466865670669932, 24775283248275757653, 32897735539890149⟩,
  ⟨-184, 2178999185345151731, 3616716417667483, 18478163135332416565, 30670170245753874⟩,
  ⟨-183, 17431993482761213848, 18083582088337415, 8053630997756786775, 8354666802803588⟩,
  ⟨-182, 19795461744952777387, 25669242719959268, 1610726199551357355, 2088666700700897⟩,
  ⟨-181, 18506880785311691503, 29997886699248188, 1288580959641085884, 2088666700700897⟩,
  ⟨-180, 10917429531052419251, 11060069289859163, 10308647677128687072, 10443333503504485⟩,
  ⟨-179, 13222671808047649537, 16744287881377414, 17224374508114377930, 21811770686540987⟩,
  ⟨-178, 6332922004801898365, 10024474508451274, 13779499606491502344, 21811770686540987⟩,
  ⟨-177, 5066337603841518692, 5012237254225637, 18692908406260346977, 18493298163281369⟩,
  ⟨-176, 20265350415366074768, 25061186271128185, 2725314160483765657, 3370265227263933⟩,
  ⟨-175, 9196265830339936170, 14215725749196059, 10048761236137499399, 15533525942757862⟩,
  ⟨-174, 13727267568273473867, 26524770303045357, 6370254904001524931, 12309044553849298⟩,
  ⟨-173, 7554364216326033737, 9123163742665882, 13529916016219389066, 16339646289985003⟩,
  ⟨-172, 19009821995874616353, 28696941565990736, 3901093563222548879, 5889032209326031⟩,
  ⟨-171, 24570482148433810392, 46364038193968829, 10043714100331001477, 18952299810149746⟩,
  ⟨-170, 15854421319572125043, 18698121977298362, 8466013762179755822, 9984505570777641⟩,
  ⟨-169, 6126247286871372697, 9031338697584951, 19456348065401504692, 28682627548076003⟩,
  ⟨-168, 19172948836073437990, 35331049062679229, 2666020155706026399, 4912822212622763⟩,
  ⟨-167, 13001219845841427994, 14973790031448261, 17164690545744819593, 19768950547281038⟩,
  ⟨-166, 1767549829187607279, 2544657378903871, 20188982457988780954, 29065117336971627⟩,
  ⟨-165, 10754485842510663851, 19353401884036294, 14438772368270898586, 25983516873553233⟩,
  ⟨-164, 9280771232206569957, 10438347430143449, 15175629673422945533, 17068462419660388⟩,
  ⟨-163, 4389491051080666859, 6171231825228352, 15175629673422945533, 21335578024575485⟩,
  ⟨-162, 32182091369421913199, 56556427655914762, 13896300159170623170, 24421193937189661⟩,
  ⟨-161, 4389491051080666859, 4821274863459650, 22234080254672997072, 24421193937189661⟩,
  ⟨-160, 24810449885467464632, 34063743664108961, 8015733891653065457, 11005278252729918⟩,
  ⟨-159, 14733620289178825127, 25285830521601919, 30765088072484956041, 52799026153426714⟩,
  ⟨-158, 12046465730168521259, 12921335899578819, 26688626448591654092, 28626878186936233⟩,
  ⟨-157, 1890154148382781937, 2534282377950056, 19833550694932355981, 26592443828643255⟩,
  ⟨-156, 1890154148382781937, 3167852972437570, 18891087193358335884, 31661008584543367⟩,
  ⟨-155, 15495082300551018489, 16230866198784463, 7934465707019890741, 8311233767690538⟩,
  ⟨-154, 1437353496008472951, 1882007773624328, 18743638406056727384, 24542099966475001⟩,
  ⟨-153, 33726940539312793487, 55200725197229068, 16144793521652160268, 26424107740099329⟩,
  ⟨-152, 24260754112411400355, 24817163953764118, 6170446709459169517, 6311963220396031⟩,
  ⟨-151, 17193044241400619105, 21984199039431107, 7488742596436058963, 9575617062549048⟩,
  ⟨-150, 13754435393120495284, 21984199039431107, 7488742596436058963, 11969521328186310⟩,
  ⟨-149, 4004025637960986321, 3999859593834488, 21946919109822263210, 21924084132796799⟩,
  ⟨-148, 4004025637960986321, 4999824492293110, 21561560925818796889, 26923908625089909⟩,
  ⟨-147, 8008051275921972642, 12499561230732775, 22238311539394872247, 34711208404790672⟩,
  ⟨-146, 10854103328616552563, 21177363331930443, 22238311539394872247, 43389010505988340⟩,
  ⟨-145, 4235620355014267601, 5165055352716679, 19062900948704138888, 23245931016185351⟩,
  ⟨-144, 26684930106817872823, 40675606384883921, 9742448686760802419, 14850329621300526⟩,
  ⟨-143, 12622461780079309613, 24050385597767092, 6862435593442295225, 13075438455484223⟩,
  ⟨-142, 7132513305325473433, 8493771770862321, 18112410254833145793, 21569210226346544⟩,
  ⟨-141, 9328492695227007905, 13886074327448957, 18112410254833145793, 26961512782933180⟩,
  ⟨-140, 7462794156181606324, 13886074327448957, 18112410254833145793, 33701890978666475⟩,
  ⟨-139, 6825429767687619695, 7937578664184528, 18749774643327132422, 21804899652137617⟩,
  ⟨-138, 1365085953537523939, 1984394666046132, 19030574478270048189, 27664316952796673⟩,
  ⟨-137, 1365085953537523939, 2480493332557665, 19592734633936115156, 35601895616981201⟩,
  ⟨-136, 10920687628300191512, 12402466662788325, 12382079838719871453, 14062148615783602⟩,
  ⟨-135, 18642213973616050372, 26464615278571927, 3060972851911846267, 4345378130443539⟩,
  ⟨-134, 3116248224340840821, 5529809287032097, 18476387856329066710, 32786509226281889⟩,
  ⟨-133, 13044022244288335805, 14466706066470418, 27246103182426616652, 30217777830721187⟩,
  ⟨-132, 5217608897715334322, 7233353033235209, 20577748529703560211, 28527649860774109⟩,
  ⟨-131, 9450233428119157195, 16376484892820902, 11420202162742180093, 19790280273355143⟩,
  ⟨-130, 7560186742495325756, 8188242446410451, 20950357639860528747, 22690789730091316⟩,
  ⟨-129, 18618363977912577853, 25206334743978938, 2331993661947950894, 3157152418635207⟩,
  ⟨-128, 2790875330803335213, 4723007476677131, 20491475971005144428, 34677791999884559⟩,
  ⟨-127, 21783861707334426381, 23040562887895613, 7080240256080723686, 7488696130801857⟩,
  ⟨-126, 2940724290250740539, 3887966689273439, 19498788153570673127, 25779580586188968⟩,
  ⟨-125, 22720393088318874075, 37548628660734754, 10957495927315911919, 18108795214367559⟩,
  ⟨-124, 18176314470655099260, 18774314330367377, 8282756001640499393, 8555258270183916⟩,
  ⟨-123, 14541051576524079408, 18774314330367377, 8282756001640499393, 10694072837729895⟩,
  ⟨-122, 2503318229953432006, 4040120746318741, 20320489348211146795, 32795363213802849⟩,
  ⟨-121, 18465766199938658695, 18626258796317562, 1560779639688797353, 1574344935276143⟩,
  ⟨-120, 21015731518706116368, 26497983472698277, 6814712519365326445, 8592427037269748⟩,
  ⟨-119, 18641685888917331600, 29380792916254409, 1362942503873065289, 2148106759317437⟩,
  ⟨-118, 24172474735879445655, 23811099983132773, 10903540030984522312, 10740533796587185⟩,
  ⟨-117, 19337979788703556524, 23811099983132773, 6069045083808633181, 7472892249950788⟩,
  ⟨-116, 14256574814201118583, 21942876920645076, 6069045083808633181, 9341115312438485⟩,
  ⟨-115, 24814440806928472561, 47741149923567368, 10557865992727353978, 20312553772761023⟩,
  ⟨-114, 2958967057179011684, 3558021189022661, 18896506692570449193, 22722176324184283⟩,
  ⟨-113, 11109363145642993698, 16698119945626133, 10746110604106467179, 16152126945882547⟩,
  ⟨-112, 4516395766564502783, 8485558222748963, 21855473749749460877, 41062808614385850⟩,
  ⟨-111, 8274813396430715617, 9716875813012454, 11306725943223875413, 13277163674707453⟩,
  ⟨-110, 30888265282878466443, 45339003953034200, 15223033811154793619, 22344964465314293⟩,
  ⟨-109, 176879064227551682, 324537511202807, 18506730786949848703, 33956129157096260⟩,
  ⟨-108, 6389907933648755307, 7327622501063699, 24144599220774607772, 27687802448240761⟩,
  ⟨-107, 16330754124722681107, 23409101239453513, 7101876514850340986, 10180089973588531⟩,
  ⟨-106, 8378077171863540467, 15011803436193002, 23432630639573022093, 41986489016302555⟩,
  ⟨-105, 20473690829320908197, 22927920693972716, 4346205952711084557, 4867195965503263⟩,
  ⟨-104, 7571702928033049285, 10599176138996442, 24956526738877387513, 34935155966512757⟩,
  ⟨-103, 3028681171213219714, 5299588069498221, 21140582351229187743, 36991803256048793⟩,
  ⟨-102, 24229449369705757712, 26497940347491105, 6045325172973769377, 6611320933067932⟩,
  ⟨-101, 20592624530359360045, 28150770580758088, 6045325172973769377, 8264151166334915⟩,
  ⟨-100, 4118524906071872009, 7037692645189522, 20062775785823205499, 34283063186485053⟩,
  ⟨-99, 16474099624287488036, 17594231612973805, 10496225257972405405, 11209900538567334⟩,
  ⟨-98, 22451973990602570667, 29973203359225345, 4198490103188962162, 5604950269283667⟩,
  ⟨-97, 7301393554965443402, 12184126544970839, 12047676983860646025, 20104438945694587⟩,
  ⟨-96, 4891858158193314197, 5102024222394951, 19276283174177033640, 20104438945694587⟩,
  ⟨-95, 31878654602041161293, 41560298432959216, 15421026539341626912, 20104438945694587⟩,
  ⟨-94, 19956473979911022751, 32521644366289454, 5961090311065069271, 9714364337454783⟩,
  ⟨-93, 14358320512372641359, 14624207721722241, 6324027154591757150, 6441135414609811⟩,
  ⟨-92, 15623125943290992789, 19890543505805254, 5059221723673405720, 6441135414609811⟩,
  ⟨-91, 13599437253821630501, 21642611674951662, 17646814632760355077, 28083747089561473⟩,
  ⟨-90, 9778613303868468131, 9726263231759326, 23831157415661223044, 23703576666695453⟩,
  ⟨-89, 19557226607736936262, 24315658079398315, 3665294983943408339, 4557090909528232⟩,
  ⟨-88, 14179663292612185674, 22037112624634199, 17844958276555594013, 27733476261544489⟩,
  ⟨-87, 24153579261756860414, 46922407067723543, 7871042307410919273, 15290829039999817⟩,
  ⟨-86, 216180935809641038, 262479986931023, 18621403548970035331, 22609513377603674⟩,
  ⟨-85, 19560662438796093473, 29687414399357371, 6231979565185843107, 9458338154900752⟩,
  ⟨-84, 20634113603185549264, 39145752554258123, 6231979565185843107, 11822922693625940⟩,
  ⟨-83, 12768103143436933547, 15139280267019334, 12463959130371686214, 14778653367032425⟩,
  ⟨-82, 25536206286873867094, 37848200667548335, 7539204280836061195, 11174146750271046⟩,
  ⟨-81, 19407754594236277169, 35956231229947846, 3015681712334424478, 5587073375135523⟩,
  ⟨-80, 17150550453118723137, 19858980685366169, 6974903245556672687, 8076386190311446⟩,
  ⟨-79, 8140517766049640360, 11782594495054723, 11045162128581492867, 15986779985416669⟩,
  ⟨-78, 6512414212839712288, 11782594495054723, 12673265681791420939, 22929123605534517⟩,
  ⟨-77, 2745590782691086370, 3104664969907413, 16440089111940046857, 18590158842960862⟩,
  ⟨-76, 2196472626152869096, 3104664969907413, 17538325425016481405, 24790031038654784⟩,
  ⟨-75, 19308885759621365227, 34115848128528153, 3507665085003296281, 6197507759663696⟩,
  ⟨-74, 19669688943383636264, 21720832609200761, 3507665085003296281, 3873442349789810⟩,
  ⟨-73, 19793936866364661861, 27322546291207073, 7015330170006592562, 9683605874474525⟩,
  ⟨-72, 13780249611282161959, 23776946853132187, 28061320680026370248, 48418029372372625⟩,
  ⟨-71, 13279428153820115629, 14320506991889960, 14080742485759389757, 15184642657998211⟩,
  ⟨-70, 19232250880899581183, 25925022901915681, 5952822727079465554, 8024389162053231⟩,
  ⟨-69, 10348785983123855599, 17437669885923453, 14836287624855191138, 24999095194037687⟩,
  ⟨-68, 23042085702804719222, 24266148501856621, 6832015378288343563, 7194951962023701⟩,
  ⟨-67, 11949640432437225114, 15730550231940161, 7689210540358074569, 10122104789089172⟩,
  ⟨-66, 11097554454021395005, 18261076429212454, 7689210540358074569, 12652630986361465⟩,
  ⟨-65, 8878043563217116004, 9130538214606227, 26475975534737544143, 27228961501209615⟩,
  ⟨-64, 24890153007990685585, 31997547036774061, 10622021244877778431, 13655144036257074⟩,
  ⟨-63, 18580202323029540074, 29857233982905437, 665960041681504197, 1070156526934312⟩,
  ⟨-62, 18939771041606896127, 19021899147695528, 665960041681504197, 668847829333945⟩,
  ⟨-61, 25274409466844380696, 31730007905040483, 6984562408392599371, 8768561762927552⟩,
  ⟨-60, 21616440055154024431, 33922148345772371, 6984562408392599371, 10960702203659440⟩,
  ⟨-59, 23411004234818280096, 22961446142112931, 6984562408392599371, 6850438877287150⟩,
  ⟨-58, 13555139138962871661, 16618552229021828, 27524263955748070403, 33744649422239703⟩,
  ⟨-57, 13555139138962871661, 20773190286277285, 16597355509013307658, 25435373307728789⟩,
  ⟨-56, 9627224763150122930, 18442098775551533, 12669441133200558927, 24269827552365913⟩,
  ⟨-55, 26147555801610731029, 31305478648836287, 10743996180570534341, 12863379873284754⟩,
  ⟨-54, 4012624612301971807, 6005204419454578, 21487992361141068682, 32158449683211885⟩,
  ⟨-53, 11002771711837610557, 20583128156196876, 24983065910908888057, 46736373419954183⟩,
  ⟨-52, 18557734122706403697, 21697727044389581, 181463647419411443, 212167534255606⟩,
  ⟨-51, 8765924639986206157, 12811413214059146, 26660701214797441357, 38964658477816453⟩,
  ⟨-50, 33455684549883112551, 61119422184600451, 15923835269910700237, 29090889149452586⟩,
  ⟨-49, 19139863290034124391, 21853860575526965, 1255150241908085555, 1433128229410114⟩,
  ⟨-48, 18448352757920497013, 26330368907967661, 502060096763234222, 716564114705057⟩,
  ⟨-47, 24423810228654328513, 43573533494918891, 8810683538569088467, 15718784689481392⟩,
  ⟨-46, 26743139411850201767, 29819596891622673, 8810683538569088467, 9824240430925870⟩,
  ⟨-45, 15983665887881533787, 22277978769005739, 33605032965019710721, 46838579846320414⟩,
  ⟨-44, 13114472948156555659, 22848634346082973, 27866647085569754465, 48550546577552116⟩,
  ⟨-43, 24591244707056468171, 26777494254237360, 11146658834227901786, 12137636644388029⟩,
  ⟨-42, 10755668698262853108, 14639857609849331, 13835576008793615063, 18832010207947369⟩,
  ⟨-41, 19663393010207249043, 33455529576049799, 1231962924212304782, 2096076299049019⟩,
  ⟨-40, 23359281782844163389, 24839849045748035, 6642997035308520329, 7064046108198626⟩,
  ⟨-39, 13329510934322777553, 17717959104022987, 13285994070617040658, 17660115270496565⟩,
  ⟨-38, 17406745482294758, 28921916763211, 18451741373743576709, 30658214006203481⟩,
  ⟨-37, 5350951793759635255, 5556746037781891, 21264553211180182956, 22082374567311509⟩,
  ⟨-36, 4280761435007708204, 5556746037781891, 22334743569932110007, 28992154718584859⟩,
  ⟨-35, 10460014722997213487, 16972344245764524, 14256998428960807645, 23133302548384117⟩,
  ⟨-34, 19028861405651561716, 19297558066027193, 945584020171432629, 958936120589231⟩,
  ⟨-33, 3994889085164598869, 5064123546654106, 19761892421344125992, 25051174789562579⟩,
  ⟨-32, 7989778170329197738, 12660308866635265, 15095557321833928361, 23919865374753028⟩,
  ⟨-31, 15449156929363715207, 15300103948850018, 14741957714304141515, 14599727769591267⟩,
  ⟨-30, 9552373843642058601, 11825266051266889, 11793566171443313212, 14599727769591267⟩,
  ⟨-29, 21345940015085371813, 33031242276072695, 5165664934137576207, 7993479314376728⟩,
  ⟨-28, 16043619025240782209, 31032872447478513, 5165664934137576207, 9991849142970910⟩,
  ⟨-27, 0, 0, 0, 0⟩,
  ⟨-26, 0, 0, 0, 0⟩,
  ⟨-25, 1745316644375829652401, 0, 0, 0⟩,
  ⟨-24, 0, 0, 0, 0⟩,
  ⟨-23, 1758567283048045102487, 0, 0, 0⟩,
  ⟨-22, 5756158080670932900945, 0, 0, 0⟩,
  ⟨-21, 0, 0, 0, 0⟩,
  ⟨-20, 0, 0, 0, 0⟩,
  ⟨-19, 5638957567265121410605, 0, 0, 0⟩,
  ⟨-18, 5903545879274149478583, 0, 0, 0⟩,
  ⟨-17, 5857556903971960749561, 0, 0, 0⟩,
  ⟨-16, 7677374899369545787091, 0, 0, 0⟩,
  ⟨-15, 2023941374682551096169, 0, 0, 0⟩,
  ⟨-14, 6978018582115329709807, 0, 0, 0⟩,
  ⟨-13, 6173423653807564516379, 0, 0, 0⟩,
  ⟨-12, 5438103894683668290787, 0, 0, 0⟩,
  ⟨-11, 0, 0, 0, 0⟩,
  ⟨-10, 0, 0, 0, 0⟩,
  ⟨-9, 5373165339151210392103, 0, 0, 0⟩,
  ⟨-8, 0, 0, 0, 0⟩,
  ⟨-7, 0, 0, 0, 0⟩,
  ⟨-6, 5131448983948034702493, 0, 0, 0⟩,
  ⟨-5, 6948974513652742179723, 0, 0, 0⟩,
  ⟨-4, 6777554990888349610371, 0, 0, 0⟩,
  ⟨-3, 8167766518840865956339, 0, 0, 0⟩,
  ⟨-2, 0, 0, 0, 0⟩,
  ⟨-1, 0, 0, 0, 0⟩,
  ⟨0, 18446744073709552639, 18014398509481985, 1024, 1⟩,
  ⟨1, 18446744073709552435, 22517998136852481, 4096, 5⟩,
  ⟨2, 18446744073709560791, 28147497671065614, 16384, 25⟩,
  ⟨3, 18446744073709586219, 35184372088832066, 65536, 125⟩,
  ⟨4, 18446744073709846895, 21990232555520352, 524288, 625⟩,
  ⟨5, 18446744073710868963, 27487790694401963, 2097152, 3125⟩,
  ⟨6, 18446744073713589959, 34359738368007522, 8388608, 15625⟩,
  ⟨7, 18446744073733847387, 21474836480028284, 67108864, 78125⟩,
  ⟨8, 18446744073929159135, 26843545600319571, 268435456, 390625⟩,
  ⟨9, 18446744073807160211, 33554432000177549, 1073741824, 1953125⟩,
  ⟨10, 18446744076950298807, 20971520003684303, 8589934592, 9765625⟩,
  ⟨11, 18446744103563478667, 26214400042424982, 34359738368, 48828125⟩,
  ⟨12, 18446744203375395151, 32768000230332808, 137438953472, 244140625⟩,
  ⟨13, 18446744099642720323, 20480000028791601, 1099511627776, 1220703125⟩,
  ⟨14, 18446744738603162023, 25600000922725244, 4398046511104, 6103515625⟩,
  ⟨15, 18446754761999900347, 32000018541228186, 17592186044416, 30517578125⟩,
  ⟨16, 18446795469488545727, 20000055723415242, 140737488355328, 152587890625⟩,
  ⟨17, 18447261007823429619, 25000700576361623, 562949953421312, 762939453125⟩,
  ⟨18, 18446960050523011479, 31250365878953687, 2251799813685248, 3814697265625⟩,
  ⟨19, 18450840508736877035, 19535587269293039, 18014398509481984, 19073486328125⟩,
  ⟨20, 18479989278032084271, 24458062161561541, 72057594037927936, 95367431640625⟩,
  ⟨21, 18669565896687841955, 30886205909042729, 288230376151711744, 476837158203125⟩,
  ⟨22, 19586583867681714311, 20252053051862763, 2305843009213693952, 2384185791015625⟩,
  ⟨23, 20980555041717678107, 27116731829860222, 9223372036854775808, 11920928955078125⟩,
  ⟨24, 15264157452569266591, 24660576390082243, 6365173242280570050, 10283491995226139⟩,
  ⟨25, 8898984210288696541, 8985677746785065, 19083261397937608621, 19269169742011204⟩,
  ⟨26, 10935839647818478957, 13802970182287866, 8147421750119129664, 10283491995226139⟩,
  ⟨27, 21871679295636957914, 34507425455719665, 5446136629611347657, 8592488543185036⟩,
  ⟨28, 25121934717965453051, 24772140203146739, 10892273259222695314, 10740610678981295⟩,
  ⟨29, 14405683190875259346, 17756375441064017, 28987388113883020301, 35729714417985246⟩,
  ⟨30, 11489342206273707155, 17702134557099714, 23154706144679915919, 35675473534020943⟩,
  ⟨31, 4595736882509482862, 8851067278549857, 21032859435557676097, 40507813803028144⟩,
  ⟨32, 10499786136918809939, 12638657831721196, 15766322786238243018, 18978020729306893⟩,
  ⟨33, 16812972683758118390, 25297349645167491, 6313186546839308451, 9499027355515996⟩,
  ⟨34, 13450378147006494712, 25297349645167491, 6313186546839308451, 11873784194394995⟩,
  ⟨35, 7137191600167186261, 8389728406732810, 20093166715176954287, 23619403963820929⟩,
  ⟨36, 9464705006104218967, 13907134083593667, 23584436824082503346, 34654215317542643⟩,
  ⟨37, 1923871277692061422, 3533593466619179, 17967474373362407223, 33001038475674578⟩,
  ⟨38, 21815216928746530067, 25042640880570585, 10010936112940619765, 11491991061723172⟩,
  ⟨39, 19186502146989905866, 27531280378205963, 2002187222588123953, 2872997765430793⟩,
  ⟨40, 25060484988832095075, 44950040486509498, 8008748890352495812, 14364988827153965⟩,
  ⟨41, 9042987208127103451, 10137539270125980, 11005400782938572609, 12337480973128769⟩,
  ⟨42, 16038710392852540848, 22475020243254749, 6995723184725437397, 9803096155597274⟩,
  ⟨43, 2218050246305753901, 3885188004929419, 18427546862062382596, 32278116398852023⟩,
  ⟨44, 18597898954676992821, 20360318160044524, 6483798646302651478, 7098232098480651⟩,
  ⟨45, 30439435914867957804, 41655014455486477, 14093657625019640929, 19286543736972433⟩,
  ⟨46, 3269155657969663375, 5592117679628511, 20413918262412266591, 34919424208948544⟩,
  ⟨47, 5230649052751461400, 5592117679628511, 20413918262412266591, 21824640130592840⟩,
  ⟨48, 4184519242201169120, 5592117679628511, 20413918262412266591, 27280800163241050⟩,
  ⟨49, 3347615393760935296, 5592117679628511, 18740110565531798943, 31304941364237057⟩,
  ⟨50, 15129914451893539795, 15796367739740218, 3478905753699597222, 3632147081337881⟩,
  ⟨51, 6051965780757415918, 7898183869870109, 22087725959292734239, 28825827378019975⟩,
  ⟨52, 18703303059200982593, 30511186754633661, 786365723404097297, 1282818942102412⟩,
  ⟨53, 19523563643104550397, 19905812042438074, 1572731446808194594, 1603523677628015⟩,
  ⟨54, 20911906056832349126, 26651670708401081, 4533805307344187917, 5778214849423526⟩,
  ⟨55, 7458001361264102067, 11881281641844659, 16525611975952477901, 26326818765403474⟩,
  ⟨56, 6288322939696136407, 6261172756136599, 22084187325936956755, 21988837620552492⟩,
  ⟨57, 20736454293597154277, 25808654375544872, 4416837465187391351, 5497209405138123⟩,
  ⟨58, 27189573351327462664, 42300282590959241, 11214230803019257017, 17446582404162464⟩,
  ⟨59, 26237351002269672938, 51023573793040473, 11214230803019257017, 21808228005203080⟩,
  ⟨60, 26279838479404516877, 31941374288487778, 11214230803019257017, 13630142503251925⟩,
  ⟨61, 20253595408850412933, 30771101967991796, 8201109267742205045, 12459870182755943⟩,
  ⟨62, 20253595408850412933, 38463877459989745, 6560887414193764036, 12459870182755943⟩,
  ⟨63, 228373266507648330, 271066727930479, 18593045228768837089, 22068940071218811⟩,
  ⟨64, 182698613206118664, 271066727930479, 18547370575467307423, 27518408407040894⟩,
  ⟨65, 10926761603744401318, 20264805673851943, 16024745179204364649, 29719541690951717⟩,
  ⟨66, 3351107926405767861, 3884359416325514, 20391934301839853324, 23636840042749435⟩,
  ⟨67, 6702215852811535722, 9710898540813785, 19550540670515552057, 28326947540758152⟩,
  ⟨68, 9271880816352338989, 16792635426003323, 19550540670515552057, 35408684425947690⟩,
  ⟨69, 7618860460644046007, 8624244409744292, 24870139457553886179, 28152000196659181⟩,
  ⟨70, 7618860460644046007, 10780305512180365, 22943655750300727346, 32464122401531327⟩,
  ⟨71, 18459179007710857178, 32648515850086805, 17414873673717865, 30801466247558⟩,
  ⟨72, 18448142997076546737, 20393122873758497, 13931898938974292, 15400733123779⟩,
  ⟨73, 12185300572401832609, 16837489542040167, 24426328740559562386, 33751982749699229⟩,
  ⟨74, 7322325862592278999, 12647368072934849, 24482056336315459554, 42286233019147655⟩,
  ⟨75, 4348813440950649665, 4694635736338759, 18076597819929194109, 19514068209445162⟩,
  ⟨76, 3479050752760519732, 4694635736338759, 16337072443548934243, 22045267393637073⟩,
  ⟨77, 3963224639261890795, 6684975782493958, 21752818742314938227, 36691603360751827⟩,
  ⟨78, 3170579711409512636, 3342487891246979, 20518934576910909843, 21631466989399186⟩,
  ⟨79, 12682318845638050544, 16712439456234895, 30736656491222088111, 40503989605443076⟩,
  ⟨80, 3998523778266022813, 6586442054874126, 18741085156424019672, 30870660842181467⟩,
  ⟨81, 29088462465206131059, 29946907145745542, 13094367352142039807, 13480802008560227⟩,
  ⟨82, 579945552184410289, 746325782156272, 18740627381872362466, 24117114677737359⟩,
  ⟨83, 579945552184410289, 932907227695340, 18936131660351879938, 30460883826065671⟩,
  ⟨84, 1159891104368820578, 1166134034619175, 19440502414446140089, 19545137841123783⟩,
  ⟨85, 15663460475486435966, 19684708214824879, 5511948029005576827, 6927019020864502⟩,
  ⟨86, 5162994584393459021, 8110599352196314, 21349885226798071696, 33538746256553883⟩,
  ⟨87, 19340216665005450035, 18988586249524089, 1311761672568386049, 1287912130966696⟩,
  ⟨88, 18095696677141132126, 22208366576940829, 1311761672568386049, 1609890163708370⟩,
  ⟨89, 6451221667315421221, 9896765665689137, 15525966679767614540, 23818256740649199⟩,
  ⟨90, 9556415003268944129, 18325521267273721, 12420773343814091632, 23818256740649199⟩,
  ⟨91, 6499388666397096302, 7789576765292991, 15477799680685939459, 18550284489658834⟩,
  ⟨92, 18560487621913144643, 27806142729941760, 495804469578349371, 742782739768213⟩,
  ⟨93, 11787274381054732322, 22073681502421223, 6885246129684064903, 12893797600631144⟩,
  ⟨94, 16105540557813945754, 18850232102263437, 6885246129684064903, 8058623500394465⟩,
  ⟨95, 11040373560625180433, 16152329951796194, 23900826253745660448, 34967479103052367⟩,
  ⟨96, 5896192483376988427, 10782837864117156, 16184554637873372439, 29597987015373329⟩,
  ⟨97, 21202313187026481749, 24233976638789176, 9409928220272504895, 10755429308642731⟩,
  ⟨98, 21202313187026481749, 30292470798486470, 7527942576218003916, 10755429308642731⟩,
  ⟨99, 9710210881728687483, 17341638444543487, 13273993728866901049, 23706261662585714⟩,
  ⟨100, 6538883098464855203, 7298692318959086, 20401559423143328181, 22772192561668855⟩,
  ⟨101, 13077766196929710406, 18246730797397715, 9468400388950302313, 13210769360574199⟩,
  ⟨102, 20202552753491655031, 35234471235589551, 8296593472756123469, 14469759719780078⟩,
  ⟨103, 6206130035485975862, 6764915827959717, 19696251963255234869, 21469657563704956⟩,
  ⟨104, 16782655206341921611, 22867159000738434, 2913596756913313258, 3969912953892761⟩,
  ⟨105, 2191092338503059019, 3731833273238228, 20418756381665489108, 34776897862416717⟩,
  ⟨106, 4382184677006118038, 4664791591547785, 19402534379236673913, 20653803045291808⟩,
  ⟨107, 7386254617452229213, 9828242352870737, 19402534379236673913, 25817253806614760⟩,
  ⟨108, 9789510569809118153, 16282555804524427, 9613023809427555760, 15989011453744023⟩,
  ⟨109, 7866905807923607001, 8177970946109764, 23247743903007696217, 24166982399853787⟩,
  ⟨110, 7866905807923607001, 10222463682637205, 21744957445575599774, 28255967872908669⟩,
  ⟨111, 9811438965147372647, 15936551317706544, 11844745301399682710, 19239215777772937⟩,
  ⟨112, 9811438965147372647, 9960344573566590, 9140153517092119689, 9278871204206347⟩,
  ⟨113, 19622877930294745294, 24900861433916475, 5618349199866322405, 7129521745494821⟩,
  ⟨114, 20746547770268009775, 32908457228769299, 4494679359893057924, 7129521745494821⟩,
  ⟨115, 17287977827893319758, 17139016489060851, 9334728525625571817, 9254296119206627⟩,
  ⟨116, 7953249302267747941, 9855900462317780, 10649082541407556630, 13196656304133739⟩,
  ⟨117, 24991781368519838549, 38713188186164703, 8519266033126045304, 13196656304133739⟩,
  ⟨118, 3294503067078758649, 6379132970507741, 20899051864189146620, 40466749638637731⟩,
  ⟨119, 5703698828398446623, 6902530614872298, 14948626879833175946, 18090603622794109⟩,
  ⟨120, 18527588174409852949, 28027261002295874, 7120190517612959703, 10770934465115129⟩,
  ⟨121, 6553593841927154471, 12392282483131533, 21927168228524684341, 41462389842444112⟩,
  ⟨122, 19256617438493320890, 22757879943742561, 2670550790031363451, 3156113707785009⟩,
  ⟨123, 15405293950794656712, 22757879943742561, 14224521253127355985, 21013552092538182⟩,
  ⟨124, 22275875149712899833, 41134535789952766, 5689808501250942394, 10506776046269091⟩,
  ⟨125, 2179251629442203009, 2515122962176823, 19367448456701103044, 22352404685223579⟩,
  ⟨126, 12154645883220592043, 17534935241645804, 27746931131892964093, 40029190914053297⟩,
  ⟨127, 12154645883220592043, 21918669052057255, 24628474082158489683, 44412924724464748⟩,
  ⟨128, 9340697927715706918, 10527644560765949, 14649411523008171571, 16510950116586721⟩,
  ⟨129, 8534301061231058465, 12023470949721142, 13843014656523523118, 19502602894497107⟩,
  ⟨130, 3413720424492423386, 6011735474860571, 19151728251815987771, 33727168549091340⟩,
  ⟨131, 20748441405982250825, 22836913568236152, 6561321989957136263, 7221763806066703⟩,
  ⟨132, 4149688281196450165, 5709228392059038, 22095599678632094887, 30399590638274477⟩,
  ⟨133, 1659875312478580066, 2854614196029519, 18463132013846198751, 31752456557228648⟩,
  ⟨134, 24939030402495064595, 26805970637889733, 11660027902666424067, 12532899657742138⟩,
  ⟨135, 19951224321996051676, 26805970637889733, 1684415741668398229, 2263139253232806⟩,
  ⟨136, 17308512050931559924, 29069109891122539, 10338671767134178191, 17363479012102277⟩,
  ⟨137, 22349924371576379309, 23460003584647553, 5529436763613147623, 5804073612903102⟩,
  ⟨138, 7834082395907922199, 10278983389098001, 11058873527226295246, 14510184032257755⟩,
  ⟨139, 3778591184626843489, 6197291855338939, 21563947001144120050, 35367169029255141⟩,
  ⟨140, 7022984153651706457, 7199026100103618, 16182761169711334998, 16588407076487459⟩,
  ⟨141, 18564596258690433164, 23787433176591077, 2259313975693510125, 2894933963166016⟩,
  ⟨142, 18679261232701383581, 29917946515600393, 451862795138702025, 723733490791504⟩,
  ⟨143, 18484251830415221803, 18503504058390803, 90372559027740405, 90466686348938⟩,
  ⟨144, 18478278083754756743, 23121905112236114, 36149023611096162, 45233343174469⟩,
  ⟨145, 18487836078411500839, 28917331311799922, 144596094444384648, 226166715872345⟩,
  ⟨146, 19371783853453596011, 18937461414326364, 1156768755555077184, 1130833579361725⟩,
  ⟨147, 7576016788466966191, 9257699671028491, 12203091810687274927, 14911867567837116⟩,
  ⟨148, 13382668517185937909, 20441600346906328, 12203091810687274927, 18639834459796395⟩,
  ⟨149, 13382668517185937909, 25552000433632910, 17792074558861382687, 33971034719976141⟩,
  ⟨150, 22325040914264510325, 26641241916251216, 8880592240214730986, 10597517251579843⟩,
  ⟨151, 4465008182852902065, 6660310479062804, 22127344412300217749, 33006654820710803⟩,
  ⟨152, 893001636570580413, 1665077619765701, 18855249996695598782, 35157219761829337⟩,
  ⟨153, 7144013092564643304, 8325388098828505, 20023679784923683273, 23334910395063516⟩,
  ⟨154, 15435156905088165941, 22484503796422889, 33164575250094090548, 48311074691549031⟩,
  ⟨155, 2628179093034081455, 4785609174429909, 19689762131807360484, 35852772191235901⟩,
  ⟨156, 4205086548854530328, 4785609174429909, 21266669587627809357, 24202586059933654⟩,
  ⟨157, 26119783971569119577, 37157106148777822, 9299437776150998265, 13229060276628277⟩,
  ⟨158, 22400008861108720271, 39831852547658139, 7439550220920798612, 13229060276628277⟩,
  ⟨159, 32543279338529774, 36167929443327, 18449411313544097983, 20504295210014560⟩,
  ⟨160, 5954894504670491867, 8272683664073089, 23689404901327848372, 32909895009075721⟩,
  ⟨161, 20272675939350496167, 35204115484114787, 3546902079331471301, 6159302836250658⟩,
  ⟨162, 8818450791606492727, 9570941725560029, 23006059108932377931, 24969198816186674⟩,
  ⟨163, 19016618889567825554, 25799167494146779, 8128592138429072677, 11027770566826683⟩,
  ⟨164, 8680479060971008717, 14720619798656707, 23833889492745281991, 40418233035476708⟩,
  ⟨165, 18243977198009115098, 19336681338444237, 7355950446870362221, 7796527488975412⟩,
  ⟨166, 19008752026529509411, 25184076955175796, 7355950446870362221, 9745659361219265⟩,
  ⟨167, 9322241263727317752, 15438417593956531, 9686510762802191659, 16041678600013214⟩,
  ⟨168, 1791594352930488769, 1854394573487481, 19038505168973390177, 19705856191670744⟩,
  ⟨169, 23381432373377657238, 30251268404197663, 8107527480827851081, 10489647768380129⟩,
  ⟨170, 18501088900544143450, 29921253174460251, 188230013821179201, 304418725235681⟩,
  ⟨171, 12294415919568316606, 12427117578694879, 6900128015068875107, 6974605602436642⟩,
  ⟨172, 3537740764813551621, 4469907388738279, 20875737559764853456, 26376328783568163⟩,
  ⟨173, 21086161777234727218, 33302747641106337, 3467599358990260367, 5476605348707471⟩,
  ⟨174, 4910752227244997517, 4847419123726726, 22830042644677085419, 22535607619810629⟩,
  ⟨175, 9821504454489995034, 12118547809316815, 19935671957809828705, 24598206400153811⟩,
  ⟨176, 5834370062928029293, 8998633161607566, 15948537566247862964, 24598206400153811⟩,
  ⟨177, 22093822153683137240, 42595472723368943, 5212541013913539327, 10049444909675014⟩,
  ⟨178, 3624987847559715569, 4367965112295352, 20850164055654157308, 25123612274187535⟩,
  ⟨179, 3624987847559715569, 5459956390369190, 21755114231106927643, 32767551220704401⟩,
  ⟨180, 26104062219028859480, 49147420391811971, 9427043261954714171, 17748764707944498⟩,
  ⟨181, 2029163251313659242, 2387754310975363, 17839504898252598721, 20992078729442941⟩,
  ⟨182, 19868668149566257963, 29224791300522880, 2350403028862324199, 3457203949129213⟩,
  ⟨183, 6067144836736643826, 11155191701132227, 13801523312829614137, 25375797424521373⟩,
  ⟨184, 5733698108865378529, 6588818060425527, 14134970040700879434, 16243050143107973⟩,
  ⟨185, 19868668149566257963, 28539835254416875, 3360508772734200362, 4827116041341223⟩,
  ⟨186, 25799830145752240931, 46324374664223614, 9291670768920183330, 16683475647879049⟩,
  ⟨187, 14649825223048020935, 16440127429230472, 14866673230272293328, 16683475647879049⟩,
  ⟨188, 2929965044609604187, 4110031857307618, 18447182296554714694, 25876932237088593⟩,
  ⟨189, 5859930089219208374, 10275079643269045, 19684726105982223463, 34516133369409291⟩,
  ⟨190, 4266956903710447031, 4676178016684253, 21277699291490984806, 23318330116239707⟩,
  ⟨191, 18740359240089216727, 25672059116377223, 6804296955112215110, 9321076049777727⟩,
  ⟨192, 22822937413156545793, 39080880932804824, 5443437564089772088, 9321076049777727⟩,
  ⟨193, 4984262345350292135, 5334254300024082, 17838675067806253658, 19091296282978933⟩,
  ⟨194, 1993704938140116854, 2667127150012041, 18730858161421514057, 25057659932344984⟩,
  ⟨195, 25036946720201633938, 41867228616304943, 8531063483820583261, 14265796433122369⟩,
  ⟨196, 18660678206251112553, 19502949214600823, 222497492504046338, 232540170765541⟩,
  ⟨197, 6802601037806061975, 8887055249355788, 21297793083434371277, 27823866601895069⟩,
  ⟨198, 1360520207561212395, 2221763812338947, 18525682163238077753, 30252906204866942⟩,
  ⟨199, 2176832332097939832, 2221763812338947, 20158306412311532627, 20574389237296049⟩,
  ⟨200, 8707329328391759328, 11108819061694735, 25364618137022116879, 32360204010476113⟩,
  ⟨201, 151473969630632221, 241563293652023, 18470128593458757444, 29455259594055191⟩,
  ⟨202, 7056747844491786795, 7033598148678718, 19958451776430302617, 19892977977776039⟩,
  ⟨203, 2822699137796714718, 3516799074339359, 18746660019385244849, 23356451886894905⟩,
  ⟨204, 11290796551186858872, 17583995371696795, 24637305623572737883, 38369504409362797⟩,
  ⟨205, 7185620434951919351, 13988374945264898, 19507397709819838671, 37975397648900107⟩,
  ⟨206, 2256909525004751623, 2745978664881759, 19714843639788670912, 23987022703635209⟩,
  ⟨207, 22210689998895060013, 33779644350796521, 4394350632958684507, 6683250342129242⟩,
  ⟨208, 15036366885700182315, 28585510274124434, 8788701265917369014, 16708125855323105⟩,
  ⟨209, 12029093508560145852, 14292755137062217, 26599222663254847417, 31604723671950544⟩,
  ⟨210, 33173254694741497243, 49269839630261232, 14943119339499086165, 22193936055049853⟩,
  ⟨211, 9264263751542959379, 17199427427726834, 11954495471599268932, 22193936055049853⟩,
  ⟨212, 19483382376185143334, 22607235057537431, 2928945438331115697, 3398555585296609⟩,
  ⟨213, 11511934614897929479, 16697114416598337, 23227716368222392267, 33689892343081382⟩,
  ⟨214, 27547104220384417426, 49943511494852657, 9250317119603650245, 16771030294069514⟩,
  ⟨215, 23643130234116424019, 26790949993668104, 7400253695682920196, 8385515147034757⟩,
  ⟨216, 18876822595224218607, 26737576897614206, 1191576909723051353, 1687777648617731⟩,
  ⟨217, 5205256810712505345, 9216060697330148, 20382078071029721447, 36087070335079099⟩,
  ⟨218, 2082102724285002138, 2304015174332537, 20106281917711322717, 22249228194887906⟩,
  ⟨219, 8328410897140008552, 11520075871662685, 23176601446964284213, 32058481553546152⟩,
  ⟨220, 2027408428319149999, 3505455483276147, 19121784590325984215, 33062190975380396⟩,
  ⟨221, 19582704467472190525, 21161960323958016, 7648713836130393686, 8265547743845099⟩,
  ⟨222, 3916540893494438105, 5290490080989504, 18845232664038260429, 25456268476256983⟩,
  ⟨223, 783308178698887621, 1322622520247376, 18982741789833133004, 32052520923473843⟩,
  ⟨224, 783308178698887621, 826639075154610, 19092749090469031064, 20148918241247459⟩,
  ⟨225, 1566616357397775242, 2066597687886525, 19700045588150481789, 25987261317349972⟩,
  ⟨226, 6266465429591100968, 10332988439432625, 18979526148648738681, 31295987583975793⟩,
  ⟨227, 32621646205848812189, 33619340211365771, 15111568974968816634, 15573738225568417⟩,
  ⟨228, 7004030892351998222, 9022800992898677, 19717091611409635935, 25400144074573027⟩,
  ⟨229, 10947449214633925409, 17628537259766603, 26721122503761634157, 43028681334339630⟩,
  ⟨230, 19446408373211793990, 19571438963468209, 4826224074493783339, 4857254259254015⟩,
  ⟨231, 15557126698569435192, 19571438963468209, 8715505749136142137, 10964427564934571⟩,
  ⟨232, 2736648379773317222, 4303505699266819, 18799335688158942885, 29562821761969837⟩,
  ⟨233, 12993031034810211598, 12770087564575983, 8542953033122048509, 8396367098696927⟩,
  ⟨234, 12174456028523434514, 14956947797515511, 7724378026835271425, 9489797215166691⟩,
  ⟨235, 16809082844624597369, 25813532658269407, 6179502421468217140, 9489797215166691⟩,
  ⟨236, 15573182360330953941, 29894466519045086, 4943601937174573712, 9489797215166691⟩,
  ⟨237, 26054287473725887609, 31258825530134049, 10184154493872040546, 12218515237344617⟩,
  ⟨238, 14495376787039171262, 21738670383739333, 13120620594224495461, 19676952901491876⟩,
  ⟨239, 3723929073096639733, 6980955707620426, 16844549667321135194, 31577146834485271⟩,
  ⟨240, 25426960303120657859, 29791196370031826, 11986068104618252262, 14043334490337529⟩,
  ⟨241, 290964818776830667, 426131847339192, 18556825722013111681, 27177355870429253⟩,
  ⟨242, 290964818776830667, 532664809173990, 18511617294198555749, 33888932466021527⟩,
  ⟨243, 16191784444739708443, 18526281389664443, 15027925169632385775, 17194619366729468⟩,
  ⟨244, 19683362270061676447, 28151584323086710, 3005585033926477155, 4298654841682367⟩,
  ⟨245, 18481128256491085585, 33040152983017204, 2404468027141181724, 4298654841682367⟩,
  ⟨246, 13314097759862944013, 14876656227083068, 5921646457266509779, 6616617981328767⟩,
  ⟨247, 13314097759862944013, 18595820283853835, 12725775821730974231, 17774110151641068⟩,
  ⟨248, 5560967879197965518, 9708765208033301, 18286743700928939749, 31926402897584636⟩,
  ⟨249, 23526943567459896628, 25671966656825619, 6523271917198991435, 7118018482577588⟩,
  ⟨250, 19742474413771084153, 26928069907397466, 1304654383439798287, 1779504620644397⟩,
  ⟨251, 21169932744159554219, 36093843717481917, 5218617533759193148, 8897523103221985⟩,
  ⟨252, 13745683153247571161, 14647381781958467, 9334419038941991341, 9946744578050486⟩,
  ⟨253, 14627935976108687125, 19484386528425079, 11098924684664223269, 14783749324517098⟩,
  ⟨254, 11702348780886949700, 19484386528425079, 28652447855994647819, 47706266448283991⟩,
  ⟨255, 1773658974311421401, 1845711578513259, 16950099075107698119, 17638674949911820⟩,
  ⟨256, 14979006439535295616, 19484386528425079, 31929105514642993735, 41532730215814854⟩,
  ⟨257, 10800549570284794991, 17561418659201557, 12771642205857197494, 20766365107907427⟩,
  ⟨258, 4714438355228398497, 4790972970888623, 22027685607974805503, 22385285034430544⟩,
  ⟨259, 18857753420913593988, 23954864854443115, 633986437412242303, 805348287719013⟩,
  ⟨260, 7289506793400540674, 11574758283362051, 19491739858325836291, 30950266427702660⟩,
  ⟨261, 1933257463055265281, 1918595838218193, 19650905086099019772, 19501874652446395⟩,
  ⟨262, 8956650421163493685, 11110905137320726, 19136921411269419931, 23739736220871213⟩,
  ⟨263, 3582660168465397474, 5555452568660363, 18569211895979153755, 28794351424546036⟩,
  ⟨264, 14330640673861589896, 27777262843301815, 18044483053057420647, 34975850699438324⟩,
  ⟨265, 8493438635732607316, 10289337493582653, 13797763735191116989, 16715237940357626⟩,
  ⟨266, 17832961896738979444, 27004575433940279, 4881282786821627267, 7391759708476893⟩,
  ⟨267, 9723520580679062213, 18405491648335986, 22714244683560606711, 42995418928021465⟩,
  ⟨268, 8416639171798069299, 9957323372372618, 22060803979120110254, 26099082376094729⟩,
  ⟨269, 13874305094726885681, 20517533717326828, 10915331845857632764, 16141759003722111⟩,
  ⟨270, 13874305094726885681, 25646917146658535, 5957404457740729075, 11012375574390404⟩,
  ⟨271, 18561312740915022459, 21444337515883522, 2382961783096291630, 2753093893597601⟩,
  ⟨272, 19514497454153539111, 28181968841653203, 1906369426477033304, 2753093893597601⟩,
  ⟨273, 11909651082034247699, 21499235151800706, 7625477705908133216, 13765469467988005⟩,
  ⟨274, 8191199133714590666, 9241691629856527, 19723702597211200065, 22253198124822619⟩,
  ⟨275, 4246458614272350653, 5988815006115004, 15778962077768960052, 22253198124822619⟩,
  ⟨276, 27794214492993746475, 48998007504231491, 11773877939360697911, 20755994373293868⟩,
  ⟨277, 10461493655034299269, 11526507268807078, 23547755878721395822, 25944992966617335⟩,
  ⟨278, 20922987310068598538, 28816268172017695, 7326803620481698475, 10090869666106898⟩,
  ⟨279, 19865563758692101651, 34199909182143370, 2930721448192679390, 5045434833053449⟩,
  ⟨280, 18693275179415029895, 20113584530576244, 4689154317108287024, 5045434833053449⟩,
  ⟨281, 3738655035883005979, 5028396132644061, 18756617268433148096, 25227174165267245⟩,
  ⟨282, 20974473454355704403, 35262668055043632, 8998108921726461630, 15127785148955653⟩,
  ⟨283, 6577499179593365795, 6911382385446617, 14396974274762338608, 15127785148955653⟩,
  ⟨284, 31424948221362023534, 41275154065112441, 13081474438843665449, 17181885839832912⟩,
  ⟨285, 27756253464858351917, 45570625525070669, 13081474438843665449, 21477357299791140⟩,
  ⟨286, 3890938557505549905, 3992625125218087, 22272010320181780993, 22854071499520838⟩,
  ⟨287, 3112750846004439924, 3992625125218087, 20715634897179561031, 26571276811792004⟩,
  ⟨288, 15756855989282480230, 25263513781550263, 17409782291914840497, 27913707859280177⟩,
  ⟨289, 25210969582851968368, 25263513781550263, 7955668698345352359, 7972249743968762⟩,
  ⟨290, 11675521572809857819, 14624819326767322, 27586858969500562537, 34555443686689227⟩,
  ⟨291, 23351043145619715638, 36562048316918305, 8699639273238253451, 13621517011652783⟩,
  ⟨292, 18860883983201754457, 18457220176236798, 1099149869638017886, 1075625679510011⟩,
  ⟨293, 18790749503459574299, 22985733408012692, 7729116327337215281, 9454620601854249⟩,
  ⟨294, 18790749503459574299, 28732166760015865, 2425143161177857365, 3708187249851076⟩,
  ⟨295, 18899676674512006328, 36123403554398121, 485028632235571473, 927046812462769⟩,
  ⟨296, 15323616782109002323, 18305246779683454, 3880229057884571784, 4635234062313845⟩,
  ⟨297, 1512631733267971751, 2258694663763941, 18546179698074230638, 27693559639097107⟩,
  ⟨298, 8852183832725950081, 16522842230771026, 11653840732380013158, 21752211142722347⟩,
  ⟨299, 20595467191858715409, 24026250295297991, 5782199052813630494, 6745395013668417⟩,
  ⟨300, 5925307255618033966, 8640427640814787, 14527051733436277971, 21183701354578436⟩,
  ⟨301, 7645656151181682767, 13936352979459396, 14527051733436277971, 26479626693223045⟩,
  ⟨302, 16209035077458032037, 18465945713908796, 33335792930010730577, 37977395917402143⟩,
  ⟨303, 16209035077458032037, 23082432142385995, 13701406282042158832, 19511450203493347⟩,
  ⟨304, 501525759083174641, 892745484723162, 18695770474180061176, 33279576117399071⟩,
  ⟨305, 2006103036332698564, 2231863711807905, 18812790344951771357, 20929924001064431⟩,
  ⟨306, 15701100886902999655, 21835068208270062, 33961098020996734443, 47228719632950303⟩,
  ⟨307, 6280440354761199862, 10917534104135031, 20818893381284469921, 36190293301363025⟩,
  ⟨308, 19189044468042188443, 20848164656041455, 791028926800348134, 859422747239483⟩]

end FastFloat
