/-! Hashed Miller-Rabin bases for 64-bit targets.

Generated by script from /repo/src/tables.rs; a literal copy of the constants. -/

set_option maxRecDepth 20000

namespace NumPrime.Tables

/-- entries 0..511 of `MILLER_RABIN_BASE64` -/
def mrBase64_0 : List Nat := [
  2404423, 3027617, 3715179, 3264583, 1593555, 5853461, 1552463, 1896881, 2904107, 5600043, 1356087, 2044251, 290821, 1150981, 1642719, 3076389,
  667689, 2650251, 1200327, 1724421, 4133355, 4494151, 1151005, 2674735, 2404773, 667731, 249897, 2904087, 1257551, 1298703, 815165, 241669,
  987333, 1839543, 1101997, 151581, 2216193, 3314043, 3387621, 1503569, 1569019, 2674851, 2429437, 2798241, 1380357, 421955, 2330647, 1716501,
  1101973, 2757207, 1200199, 3395643, 987153, 1257519, 2945595, 1994825, 1642879, 1716607, 1470537, 274473, 5034585, 2707899, 741477, 2871903,
  323643, 1052677, 1503513, 1110213, 3371237, 864345, 5157741, 2830397, 4723085, 1896521, 3518631, 913487, 2674725, 1274089, 1445893, 397317,
  2650461, 462937, 2535471, 815171, 1150993, 299037, 1675281, 2011285, 1273861, 2281743, 290821, 4305755, 1552533, 2945205, 1282185, 2625573,
  339999, 1028275, 1429797, 217093, 4133591, 1110033, 3150567, 1913109, 274445, 3322029, 1995003, 1527957, 954595, 979071, 446495, 1896509,
  987327, 1642501, 3617519, 733323, 979101, 3314187, 1298503, 2535857, 1642555, 1052715, 3371339, 4084005, 1445941, 782425, 979047, 1200307,
  1527851, 1888713, 2084869, 618609, 1552551, 520199, 1052865, 987141, 1527935, 1052679, 1593367, 1028323, 815117, 913421, 1159239, 1445929,
  2584925, 1200391, 929895, 1839183, 1642585, 1888263, 979071, 364617, 520301, 4133525, 4714863, 3510373, 3535449, 2281935, 790629, 1724799,
  3363279, 3150287, 1355829, 2043957, 4059165, 569475, 1888603, 618627, 274485, 1028233, 667695, 274463, 1626363, 3100901, 2454075, 217129,
  397335, 1298485, 806915, 1110087, 1151085, 1642569, 4182525, 413733, 2085231, 1028289, 987285, 1200265, 569397, 438331, 1896587, 2797941,
  618507, 913599, 2281475, 1282221, 3518661, 3002625, 1896453, 1896699, 1101987, 4059263, 1913059, 3617157, 2454007, 1200339, 299069, 2626077,
  1134611, 1273917, 1569025, 3265155, 3535675, 1151059, 3494019, 3494345, 978987, 299019, 2429415, 864453, 1798247, 2339057, 323607, 2060727,
  6836295, 1773669, 667721, 1839547, 978949, 667661, 1101933, 1200169, 3879775, 2241021, 2216177, 2699611, 1446181, 1593397, 3371121, 684139,
  684073, 806949, 2281845, 733273, 1446001, 618519, 1839231, 2633837, 4223419, 4297153, 438315, 2240823, 2428989, 462901, 618555, 3715119,
  438303, 1077307, 938115, 987239, 782349, 4969091, 1593457, 2306547, 2404357, 1675311, 1101937, 4084065, 708661, 2330815, 1200187, 1257485,
  979125, 274485, 1724723, 3002789, 1274127, 2044187, 1675277, 2461979, 1101855, 4304957, 1765567, 2625777, 2011143, 1593555, 790541, 1028197,
  741429, 462957, 2404575, 2084977, 5575515, 790685, 1110227, 1200327, 3903601, 806979, 3494579, 1298605, 2240541, 790635, 741435, 1527935,
  4518067, 4543533, 2134083, 1724429, 1675661, 3732063, 2830617, 2510909, 1134773, 1962445, 1298511, 3026991, 4453085, 2535867, 4174311, 4133451,
  1028293, 1470775, 3313971, 2453523, 610387, 1888353, 561279, 2536025, 1134615, 2216019, 790545, 1298449, 4026715, 782445, 1470715, 2339027,
  569475, 708619, 2011495, 667757, 3395825, 1962235, 790559, 1568805, 815285, 2527335, 3002807, 2142359, 1626285, 987177, 2707569, 790533,
  2535573, 462901, 1568949, 2486379, 741507, 4837755, 929821, 1257755, 2757255, 561265, 1200225, 413719, 1552415, 2486375, 5624007, 1798575,
  3395985, 929835, 1356005, 684115, 290875, 4477317, 667715, 364575, 4518139, 864455, 1028295, 1765413, 3510781, 1028115, 4796747, 1380411,
  1421643, 2945413, 1110045, 1052689, 1724817, 2306229, 3837963, 987173, 2699643, 151559, 1814631, 2871957, 708679, 815271, 979045, 1200229,
  2699545, 3043441, 2216193, 3437035, 3150023, 3371087, 249899, 4174821, 5255517, 4026909, 1528001, 643115, 1151055, 2626155, 4714999, 3510631,
  1110195, 2904137, 167949, 1528049, 94225, 8655567, 913467, 151575, 1626291, 1814769, 2625549, 339981, 241707, 2625693, 2216165, 2535591,
  126989, 2584689, 1028253, 5337521, 1421439, 561205, 2134503, 1380581, 1052709, 6189349, 4059755, 2535887, 864365, 667721, 2338953, 3879193,
  2306197, 1716307, 2453773, 815283, 1110179, 3494699, 2707713, 3076599, 618557, 1552487, 2510927, 1814929, 6608415, 1101981, 2585177, 5239611,
  1503455, 217135, 1200277, 667651, 290877, 2461823, 5656589, 929919, 2134495, 446487, 3003077, 1380383, 2486315, 1642669, 340009, 2871607,
  2404791, 1593613, 2142561, 1995201, 4469545, 1888489, 4174647, 2011347, 2011239, 913557, 1765503, 3436587, 1028259, 1101891, 5035137, 2085343,
  1814709, 2650755, 1503413, 3535041, 815261, 815211, 3396341, 249869, 323601, 2134243, 667653, 1298473, 569347, 2773665, 954541, 2625849]

/-- entries 512..1023 of `MILLER_RABIN_BASE64` -/
def mrBase64_1 : List Nat := [
  2281873, 3634015, 733255, 3117393, 1110273, 217111, 913619, 5403577, 864297, 1356053, 2535933, 2626105, 2281581, 1765539, 2404621, 1814791,
  3437271, 1052683, 2584815, 1134833, 421967, 930015, 1134611, 2634065, 274469, 176141, 2871897, 2404525, 340047, 1355847, 1552607, 1593525,
  864323, 790595, 2330887, 1200181, 782503, 1200319, 684061, 2011315, 1274067, 1110207, 397317, 1282341, 1421353, 1282155, 667785, 1298445,
  1675371, 5042277, 1150989, 782403, 1724445, 462877, 2945631, 1052685, 2674915, 979003, 684091, 2363529, 1773605, 4600667, 3961505, 3608713,
  6435735, 5828901, 2461935, 1642563, 954477, 815285, 1503333, 569481, 2699763, 77837, 1159367, 4223115, 1839315, 4379103, 1273879, 864285,
  2773261, 4001839, 954411, 1052809, 1765387, 1134597, 2633985, 3002411, 2699391, 438285, 1356053, 1470573, 1839477, 2584787, 1912863, 1626221,
  1724817, 3100739, 3535509, 929971, 1159271, 421893, 2535591, 1994925, 2240735, 1421581, 643185, 421955, 1896557, 643155, 1503291, 2240705,
  2486523, 1355859, 1569115, 1503383, 1896579, 1282157, 1716405, 3076559, 2339199, 1028109, 2044155, 1642879, 618605, 1896785, 2584965, 1052811,
  1552445, 643169, 1994925, 520197, 2134329, 1798527, 2306187, 1962381, 1568917, 1814545, 5329665, 1380591, 4723485, 1503389, 3396185, 1675487,
  5313729, 938093, 864339, 2510945, 1716465, 1282121, 2650263, 1274113, 2756619, 1724421, 815235, 1765669, 1773605, 3535207, 2404501, 3617445,
  1896561, 1159269, 3436795, 2142287, 3363429, 1552565, 5328927, 3838305, 913607, 3879709, 1110209, 1445995, 4059777, 1995003, 1675403, 667805,
  2330653, 2756865, 815285, 782377, 1445917, 1101921, 413709, 1446165, 3764765, 4231941, 913571, 2216043, 2625549, 2585055, 1814707, 1716555,
  2306437, 1273873, 2363703, 3805911, 1052923, 4256267, 2281821, 397329, 864365, 2634041, 1470745, 2339213, 1552413, 2871957, 1200141, 4452915,
  913565, 790631, 2043965, 1028179, 1101955, 3395691, 3314383, 4887567, 1675395, 741449, 1429661, 1298463, 536637, 1839127, 1568917, 421901,
  1888603, 2797989, 782515, 610365, 4354071, 1913071, 2453547, 1028175, 938111, 1134821, 397317, 1675311, 1626381, 2240745, 610333, 1888315,
  4297581, 1675283, 1569061, 1724649, 1421509, 1798191, 290875, 397401, 397401, 2633979, 1814791, 3223709, 807075, 3027575, 1773819, 3166249,
  4600847, 954435, 3117069, 1200355, 2699767, 1101861, 1298671, 438303, 3322443, 1593625, 913481, 1675391, 4026705, 1995083, 790551, 1675661,
  1765689, 1200217, 2134299, 741479, 2085027, 1470757, 438345, 2011399, 2363649, 815177, 2134465, 3002831, 1839135, 1593675, 913589, 1159187,
  2363835, 741381, 1028245, 733225, 5231149, 667689, 864269, 217117, 3387501, 2699497, 569445, 446565, 1052719, 536617, 569481, 3855159,
  438325, 1716307, 118803, 1675463, 3396063, 1429635, 4887547, 3764229, 1150987, 987243, 3395693, 954471, 299051, 1298599, 1429841, 2708057,
  3510655, 2978369, 274443, 1626471, 2240525, 733189, 1626275, 2904671, 5354439, 1593357, 1052709, 3371207, 413733, 2338973, 1028253, 1593607,
  569445, 979173, 1101855, 4985961, 1257753, 176141, 3879411, 2511297, 1134759, 815271, 938015, 2699697, 1724439, 1052865, 1429817, 864383,
  3076805, 1257665, 1913043, 1134785, 938091, 733189, 1839451, 53251, 536703, 2339247, 5042483, 4624893, 3223589, 2085325, 520293, 806925,
  3166441, 4599975, 3387433, 954559, 3765083, 1159445, 1028127, 643091, 1445893, 3027323, 1421589, 4133057, 3617001, 2044197, 2527329, 3117747,
  4027251, 4796649, 1839277, 3617429, 3961505, 1052761, 3363205, 69643, 708711, 1995003, 1716555, 2527471, 4354227, 782343, 561235, 1298595,
  2871369, 2650611, 913455, 1470517, 1052901, 790541, 2904107, 2650165, 643085, 790531, 1503465, 1421629, 1765513, 2281575, 3027083, 323627,
  6788253, 3764313, 2044185, 2429259, 1675535, 1274133, 2281479, 2363465, 1642509, 1151215, 2216135, 2945173, 1445997, 1052799, 2527581, 1872321,
  1593405, 421967, 1798185, 1028329, 217105, 987365, 2011449, 1675461, 2331091, 954429, 561195, 815157, 667757, 618645, 667749, 1593349,
  2511449, 2339295, 1446085, 610405, 1593661, 118801, 3002931, 2461827, 979041, 5328963, 1994943, 1765605, 2871837, 1355817, 2453727, 1896891,
  1151127, 2486793, 1552607, 618585, 3592271, 192517, 1200351, 5869861, 2535675, 1380581, 3002789, 1798475, 274445, 2511111, 462945, 1675283,
  4231521, 2461889, 913539, 4920173, 1159251, 5230815, 249903, 3043375, 3043375, 3314425, 1871961, 290875, 3002871, 1052785, 2945467, 1896479,
  2363429, 937997, 1569037, 569405, 3002877, 2650375, 4083779, 3043501, 1503585, 643211, 1028199, 1110057, 2429221, 979143, 2462139, 2281543]

/-- entries 1024..1535 of `MILLER_RABIN_BASE64` -/
def mrBase64_2 : List Nat := [
  1765735, 2773231, 6321299, 1134863, 3960837, 3166617, 569349, 3608769, 3117115, 3314311, 2674785, 2871559, 1568847, 1872021, 1642539, 913451,
  2043947, 1421595, 667751, 1888405, 1356045, 1912845, 1839375, 438301, 4149861, 1503429, 1552665, 1527989, 5255359, 864269, 2634305, 5066951,
  3510471, 2281975, 3322595, 2674693, 2527653, 2486303, 536679, 2675131, 2527515, 1110099, 2240823, 782349, 3363535, 3764277, 1716481, 3314037,
  1429677, 3387565, 1282215, 643109, 2650305, 3100979, 4763755, 733189, 987273, 2773623, 1642647, 2060451, 2978411, 126999, 1593717, 643115,
  3264931, 2453755, 2584803, 3224061, 2773221, 1896687, 4231215, 2330803, 618645, 1626351, 2535527, 2511425, 3396323, 2281831, 7467699, 1642575,
  2650115, 413775, 1527813, 2044071, 815241, 782437, 3731469, 4174581, 192525, 3387649, 618569, 987179, 4862781, 1134651, 2142699, 1503459,
  2142491, 2281503, 6346163, 3633939, 815255, 2699613, 979045, 2757267, 790595, 1110245, 2707913, 979167, 3494429, 7278965, 3076433, 2674759,
  217111, 438313, 1200141, 3150093, 192517, 3117499, 1102053, 2216109, 913607, 3617045, 1724483, 1552421, 1527813, 1724517, 741525, 733281,
  807043, 536629, 1839231, 2486535, 1913071, 1913095, 364617, 1282239, 1642695, 5870031, 167959, 1446157, 2633961, 1446201, 413793, 1552523,
  2060559, 3960837, 3592301, 913439, 2216127, 741527, 4886629, 118807, 2044301, 1257561, 2626137, 2650153, 299045, 790659, 1257653, 806953,
  1282341, 610307, 2085223, 3494117, 364567, 3002375, 3510513, 5239553, 2871435, 3879709, 1380533, 733291, 2797969, 2650659, 1159307, 618501,
  913565, 1134803, 2060299, 1765473, 938195, 1871913, 2536001, 913419, 1896837, 1298659, 1200391, 1814757, 2085285, 2650753, 1962343, 3838749,
  2084869, 1773581, 684091, 1429541, 2634215, 1888563, 561163, 733225, 3150425, 1503545, 1888269, 1028245, 3321945, 6140731, 2428975, 2773651,
  3731647, 69645, 3150213, 1765615, 4174401, 1552731, 561283, 929989, 1273927, 2978315, 536581, 446505, 954561, 1421485, 938021, 1298461,
  1102075, 3002835, 643179, 561165, 4059141, 2339303, 192525, 3150023, 4059645, 733203, 790707, 2281545, 2830995, 1077261, 2453821, 2085265,
  1896611, 807085, 4625487, 2510915, 1298605, 1503465, 1134759, 741477, 6115525, 192549, 1282317, 3977413, 397343, 3609453, 1724495, 569357,
  1380383, 815231, 1913143, 1765603, 2527569, 1814727, 413755, 733227, 708735, 3961463, 733189, 462957, 520229, 864365, 446469, 536613,
  2756627, 3592809, 610365, 3388135, 126983, 1077357, 2756621, 1257713, 6190003, 1773635, 3027225, 5771301, 1028127, 8532021, 2454051, 782433,
  3076289, 3510309, 1569061, 2773585, 1593475, 2281921, 2757029, 1355855, 4543107, 1052755, 2650117, 2363565, 1429851, 987237, 1642647, 340029,
  5010237, 4182633, 4232055, 929905, 913421, 1626201, 2675301, 1110255, 1282325, 1593475, 2429419, 2240549, 1773899, 1724483, 667659, 2306053,
  1159275, 1052725, 3100725, 1282061, 2429239, 2331087, 3879795, 2306239, 913455, 2871567, 3166591, 790719, 1765489, 3371451, 2797611, 610315,
  2330713, 2756627, 4305725, 2535603, 1871913, 2011525, 4297587, 4059993, 1593615, 2871669, 3043869, 1503459, 438303, 1052691, 4174507, 2330671,
  2625607, 1421341, 2674801, 2363585, 1716573, 2281821, 5402803, 2510907, 1503321, 2699877, 4452579, 929919, 929797, 290827, 667719, 1765437,
  684051, 569457, 2429419, 913451, 1716327, 3150015, 2535987, 987237, 167949, 569453, 1429635, 4256571, 1077459, 1626305, 1765773, 2453733,
  2240685, 3519191, 864309, 446469, 2945307, 790607, 3076529, 2486529, 2216219, 1274149, 2462127, 684103, 2699575, 2830745, 2215949, 3027543,
  930015, 1773849, 987287, 5279749, 1298745, 2215983, 1052709, 1429635, 4379033, 3313827, 2904171, 1675575, 2142587, 3264523, 4083903, 364627,
  1527947, 3043789, 364561, 741513, 1355829, 1675323, 741473, 438277, 3609085, 2707527, 2142471, 1626243, 643079, 1159401, 1527881, 733267,
  1552641, 2707899, 3805935, 954535, 979177, 1839121, 1675305, 2339109, 2625759, 3903561, 733215, 4002123, 3117409, 1888593, 929959, 2462007,
  1110077, 643151, 3371011, 1159257, 3732027, 2044283, 1552403, 536587, 1593625, 2904243, 1445917, 4477961, 2830997, 4355045, 167953, 1675445,
  438375, 2510909, 4133685, 4969067, 2462183, 2535845, 4378763, 1568791, 1503525, 3395603, 2011141, 1355987, 4223167, 979143, 913547, 2084953,
  1552697, 667695, 937995, 364549, 1888519, 643223, 4305363, 741533, 733333, 5231049, 1872095, 667707, 569471, 4297675, 4026985, 2773593,
  3371027, 1896629, 3609267, 3371681, 1429617, 1052703, 290883, 1994789, 1896905, 1446055, 667761, 1994765, 241675, 1675307, 1470705, 643151]

/-- entries 1536..2047 of `MILLER_RABIN_BASE64` -/
def mrBase64_3 : List Nat := [
  1150989, 2756757, 3437283, 806955, 5411693, 69643, 1675575, 2363661, 1716283, 2331181, 913413, 6386697, 4722915, 1765437, 2134519, 1642735,
  1773581, 782373, 741515, 1642885, 3265125, 94221, 1888609, 249909, 1110273, 2486381, 987173, 569403, 69637, 2240541, 3363463, 1429677,
  2142575, 864357, 2404551, 3223949, 2240579, 2527689, 2011153, 2699347, 1134849, 1552427, 954591, 3977707, 2699457, 4862053, 3395957, 2453943,
  4575585, 806925, 2707467, 1355799, 1257621, 561193, 2634207, 1913205, 1912935, 1814877, 3608889, 2404501, 1798371, 1593405, 1380635, 1962015,
  1626159, 1282259, 364597, 1503543, 2978511, 2044181, 5157343, 118803, 1257705, 1429617, 1995141, 3903861, 5116293, 290883, 1200145, 1814547,
  1028163, 1839477, 987327, 2871627, 733257, 5255845, 929845, 2085121, 1421341, 684103, 1626429, 1134595, 3879001, 1527821, 741525, 807069,
  5034723, 3510277, 2511059, 2240849, 3617037, 1798461, 1503443, 2142407, 2830517, 413763, 4837975, 6541541, 1151173, 1101951, 241693, 2945035,
  397343, 1675323, 241711, 1568781, 1257635, 2060415, 4354157, 1913061, 1200319, 807015, 299045, 1380531, 4083759, 1355885, 6787899, 733189,
  520205, 1716475, 2011233, 438369, 4231589, 1200259, 1282331, 741435, 4599819, 2871447, 274479, 684045, 569357, 4133793, 5845591, 2904453,
  2945527, 2011317, 1642585, 3436547, 2134473, 2486315, 3510873, 1765599, 5329573, 2240913, 5231025, 2142545, 3371585, 1814569, 1282215, 2535443,
  1446037, 1626171, 1470471, 1814961, 4149795, 610443, 1028245, 1200229, 1765459, 462879, 1913065, 1814611, 118795, 3854475, 2527237, 684051,
  520275, 2134323, 708613, 643181, 421901, 241677, 2306137, 2650569, 1675395, 684075, 192553, 4059593, 2240943, 364617, 1257483, 1159229,
  1282145, 1446099, 815267, 1151233, 5034031, 954457, 1134605, 118797, 1503315, 1626393, 733225, 2044305, 3396341, 446517, 2625769, 4297161,
  2011599, 1077361, 3117159, 1298683, 913589, 708765, 1380425, 684073, 2363549, 1961997, 2633735, 806917, 2330703, 2773585, 2830475, 782359,
  1528139, 2142431, 2978451, 610411, 3592253, 421947, 618563, 3961619, 1814719, 3732175, 2060397, 1052785, 1765513, 913491, 1298673, 733285,
  4379187, 1765443, 1101997, 1995171, 1445955, 2527501, 2240789, 3027093, 2486309, 2756981, 2085343, 2756711, 2830353, 3076829, 1798343, 1282221,
  1257599, 815145, 1273869, 5231415, 987225, 2044167, 1273963, 462907, 2404399, 1912835, 4600871, 1642845, 1675637, 3518601, 913619, 323643,
  1888275, 2281671, 126983, 323595, 3371357, 2306221, 6090859, 1355939, 1675277, 323597, 1773647, 4346419, 733197, 979173, 1356033, 1675287,
  438277, 2674881, 1052835, 790707, 1421523, 1102057, 2043951, 3510673, 3878955, 5435879, 2453745, 3519117, 3117577, 397349, 2486865, 290859,
  1200307, 397379, 2240609, 2650659, 1888387, 1028179, 2060295, 1503341, 5403343, 1773641, 4355081, 2134383, 1626393, 3518861, 937997, 2486555,
  1642893, 1773861, 1200319, 2871405, 2404753, 1052703, 176139, 2240613, 3117457, 6067503, 1888429, 1798241, 708637, 929797, 3117457, 684049,
  4059755, 1298745, 413785, 3519215, 2633841, 2085171, 446525, 2281533, 3805551, 1872165, 2461853, 1052713, 3101363, 1888483, 815253, 913605,
  397343, 569417, 782485, 684171, 1642543, 2707487, 3166711, 2281845, 6361317, 1773849, 782355, 340009, 1552425, 815267, 3878955, 1814917,
  1110021, 520205, 2429491, 2757131, 5042753, 53255, 1380509, 929799, 2871435, 1773615, 3264571, 2363831, 1814937, 2339189, 1896867, 2462145,
  979143, 1814727, 4542745, 708705, 1724813, 2060599, 2044301, 299067, 1445971, 1527999, 2363949, 2306445, 167949, 4223013, 6026093, 2060367,
  708645, 3510813, 2060325, 2404453, 77829, 3149975, 1552635, 2429475, 1626239, 2773053, 2134519, 1446061, 1101991, 1134603, 536685, 2134035,
  1724499, 1429731, 1257509, 618603, 2084877, 806973, 2462043, 2142641, 192553, 1626219, 1257629, 2339307, 3265015, 4256265, 1675623, 3436675,
  2240711, 1626249, 741381, 2945253, 1962403, 864365, 1110125, 438331, 1528155, 987327, 339985, 3027051, 3043945, 413709, 2945163, 2757249,
  2134167, 7100067, 6100031, 2043993, 864315, 6099491, 684121, 1503333, 1888339, 2830779, 1429731, 4083819, 1552515, 782475, 6239247, 290833,
  3150183, 978981, 2281861, 3027093, 339991, 708669, 3264859, 1716417, 3371199, 806983, 3265129, 1273887, 3076167, 3166405, 1298505, 1282179,
  3043395, 290833, 1994933, 4223005, 1429517, 667653, 3223565, 1200231, 3879799, 618563, 1773759, 2699841, 2339283, 2060779, 806949, 1552407,
  1421413, 684169, 1724429, 2945595, 1675497, 864293, 1626471, 2060319, 864339, 3224213, 2134267, 708631, 3223973, 1839297, 1593423, 1421629]

/-- entries 2048..2559 of `MILLER_RABIN_BASE64` -/
def mrBase64_4 : List Nat := [
  1257515, 4059897, 290847, 864455, 1724805, 5067065, 1642543, 1962067, 3363475, 323627, 1527987, 446481, 5894211, 2060601, 6418881, 1446045,
  1568895, 2871589, 561193, 2797849, 2904227, 1995153, 790637, 1028113, 1773587, 1593577, 3903547, 1716285, 3076259, 1675277, 339981, 1593381,
  807049, 2060539, 1151253, 1896869, 3855147, 618501, 1675463, 3314317, 2240669, 913411, 413763, 421905, 913601, 2428933, 1257623, 3027383,
  3609345, 1380483, 462871, 2707845, 1913143, 1077319, 2650579, 2240945, 4083935, 569415, 1421535, 3264553, 2306401, 1503563, 2060349, 299079,
  2584773, 790677, 3879141, 1765479, 4476999, 2486421, 462885, 987249, 708745, 2462135, 290875, 3510483, 643131, 339973, 3494345, 1159199,
  2134083, 3715085, 1765489, 1380615, 1134855, 4346875, 1200357, 4837543, 1626491, 1871973, 1896629, 4231629, 3223701, 2708027, 987327, 1527837,
  1839477, 1274029, 1724657, 1642845, 2060667, 446469, 1962333, 1642875, 4837963, 1642767, 987149, 1888419, 2486333, 1552625, 4576253, 2486681,
  2429265, 1421371, 3117163, 3076193, 1159181, 1134771, 249897, 2281713, 28677, 520305, 3363507, 413713, 118789, 610327, 790637, 4452635,
  643083, 3264909, 4379165, 77837, 1839505, 1052781, 2134495, 2511155, 1421491, 1773735, 249915, 4494195, 1724709, 2634249, 2871717, 2511179,
  1798203, 2142255, 4305263, 2830475, 913559, 249867, 3387625, 2043965, 2707655, 241693, 979135, 1765615, 1421551, 77837, 1356045, 2797999,
  2453835, 6238675, 2134189, 364585, 2134045, 643077, 2060551, 1159239, 1282095, 6541373, 1642533, 790541, 2134435, 610333, 1052679, 1962277,
  274463, 167967, 340041, 610431, 53259, 1257573, 1814725, 3313801, 2330787, 2338919, 3314283, 446561, 1593711, 1593657, 3100685, 790565,
  790601, 815109, 1298469, 815213, 1421331, 3002397, 6591273, 954421, 421989, 2363439, 339979, 3043339, 733291, 2707749, 1995083, 1888615,
  987141, 929809, 1527845, 741513, 2216415, 3510373, 462927, 2626123, 929875, 217135, 3027383, 1200255, 1569105, 2142501, 2306595, 1568941,
  1470795, 1200397, 364617, 2404773, 1765785, 610407, 3396227, 1724709, 1028247, 4256103, 978975, 2060605, 1356093, 1896453, 1872029, 4354877,
  1052785, 1159235, 987141, 3363429, 1421451, 987143, 790611, 3166669, 3764381, 1593423, 1626149, 733203, 323613, 1724547, 3978103, 708691,
  1839513, 3387825, 2429395, 684159, 6189067, 2216207, 3436963, 3617325, 1962097, 3854359, 4132973, 4887577, 1356027, 2330821, 3608607, 1470591,
  4476951, 2650155, 790565, 954421, 1642737, 2486715, 1962403, 2142305, 4002493, 438345, 3027005, 1675527, 3494157, 2216385, 1994799, 929805,
  4542553, 4575941, 2461893, 741429, 1028155, 6582403, 1528101, 610341, 6950925, 1380621, 2625747, 3313995, 1724835, 1282211, 413785, 1429785,
  7205745, 520295, 741429, 643173, 446477, 1626363, 323651, 807039, 1028287, 1077397, 1134663, 1839157, 1872143, 3223589, 340021, 1527849,
  1568917, 536683, 274437, 1110213, 3027365, 1961997, 1273965, 741539, 1028143, 1913145, 1355885, 5772445, 5354523, 913481, 1101883, 733315,
  2625849, 2044005, 274461, 2830779, 2904371, 1077351, 1552535, 7057589, 446475, 1888653, 815157, 667655, 2674729, 2486343, 4354787, 1257653,
  1896621, 987267, 2404795, 249897, 4083813, 2339175, 4060113, 1028199, 2978279, 192541, 2536041, 1028263, 1470501, 2511165, 1569001, 2216357,
  569451, 1872029, 2486289, 2945307, 3117475, 1273995, 3100943, 3117517, 1626221, 1552407, 2486661, 2453773, 3805861, 3838209, 1798325, 1134771,
  1028223, 2461827, 2699545, 299075, 413779, 2536001, 6935765, 1200133, 1356057, 2453817, 1724825, 2511077, 4600119, 4477469, 151557, 3314155,
  1773669, 1159319, 4182405, 4543095, 364549, 987315, 1527819, 249915, 3764417, 1503293, 2830667, 8303653, 2085127, 954441, 1765389, 1888269,
  1470477, 954541, 4354775, 3535297, 1798317, 708721, 913515, 167949, 2306397, 413701, 643113, 684135, 290821, 1593607, 1503269, 2584637,
  1798185, 1298511, 3592739, 790685, 2527633, 413709, 1962097, 421931, 192525, 2339043, 561171, 323637, 2044277, 864293, 1961987, 2773285,
  1200357, 2363445, 979051, 1814701, 2699787, 151569, 790611, 2216319, 4149681, 2281669, 3003045, 3961181, 6435213, 462937, 569357, 2363891,
  2634369, 979017, 2060317, 290853, 520235, 1626141, 413743, 6788481, 2043909, 864309, 1814809, 3313897, 3855009, 1839381, 782373, 1503291,
  1159257, 561225, 618585, 1568797, 1110075, 5895357, 421947, 1962037, 2404465, 1298709, 2486423, 1298493, 2281911, 4722729, 1101975, 4575539,
  2331003, 708717, 1151157, 782395, 1871973, 3223785, 1913169, 1134623, 1716613, 1356015, 1110213, 1716337, 1446015, 938063, 2085247, 274473]

/-- entries 2560..3071 of `MILLER_RABIN_BASE64` -/
def mrBase64_5 : List Nat := [
  1134731, 2429191, 2281951, 3166779, 5255859, 3002645, 3362913, 438313, 364617, 5771445, 913461, 708747, 536595, 1569081, 3494121, 3616895,
  1101981, 987167, 987225, 151565, 2650485, 290833, 1355885, 643109, 987239, 1765725, 938123, 1446199, 954409, 5575029, 1839451, 1913103,
  1716591, 2707979, 1200201, 2707845, 913451, 2215989, 462937, 520209, 667755, 2142359, 4346049, 3314257, 1470661, 4149867, 1028109, 438361,
  2527833, 1110215, 3494111, 1528085, 4477959, 733245, 3027093, 1028263, 1839193, 5845285, 1446219, 2634021, 2429265, 1110255, 2486703, 3535075,
  4452431, 1871885, 4379003, 1642773, 1716577, 1200277, 3977283, 1151169, 1445935, 4797167, 2756739, 1151245, 2461709, 3166609, 1200165, 2240769,
  3854533, 3903561, 299037, 3494285, 1380503, 2142405, 1282205, 2216247, 1028253, 1380549, 790607, 1470817, 3322629, 2584605, 438345, 569375,
  987149, 1429565, 2240901, 1134831, 3387663, 4379103, 610443, 1896821, 151565, 569351, 1798421, 2871577, 1642525, 1888489, 536623, 364617,
  2756715, 3002373, 733257, 1528091, 782403, 561181, 708667, 1626485, 1273861, 782349, 2142525, 2462217, 1298463, 2330835, 421929, 2330787,
  1282179, 2044077, 323655, 1839435, 782499, 2338877, 1814667, 1527957, 8558153, 4518871, 4452449, 1355813, 2585099, 2699295, 1839217, 1798367,
  176147, 364611, 790541, 1028275, 1282107, 217101, 1355933, 2404419, 462931, 1872111, 1626171, 3076559, 3510409, 1896689, 1200145, 1151199,
  2134047, 2338845, 1101925, 3100685, 1101997, 2339195, 1110099, 610365, 1528037, 77835, 520281, 2871453, 3387949, 1593363, 807039, 536649,
  2707607, 2084887, 2331145, 6591461, 2084883, 807019, 1134759, 618645, 3223659, 610307, 708675, 2708063, 2461743, 1765617, 4764559, 1527875,
  1896605, 1913005, 3731695, 987317, 1724513, 1593651, 2429419, 1642549, 1470507, 4346125, 1871889, 1151019, 2363739, 446547, 1675317, 241683,
  1200181, 438303, 2626027, 561189, 2486483, 2331123, 1773917, 53255, 1994963, 2708013, 1101937, 2306179, 3371529, 782433, 3977439, 569373,
  299025, 2044155, 4027029, 987365, 421917, 569375, 2486303, 77835, 2699743, 1052733, 520197, 1528035, 2486435, 413785, 2043917, 790571,
  413737, 1446205, 118789, 2404689, 2977923, 2797927, 913421, 3322079, 2240805, 1282091, 4231919, 1421355, 1470627, 2585043, 2085367, 979173,
  3076335, 937989, 2404441, 1593349, 3314281, 4968555, 413739, 2486711, 3961491, 3535531, 929797, 2699787, 2453937, 2404623, 1380591, 1200165,
  1200237, 1527837, 3027275, 5010181, 2871867, 913415, 708691, 1593349, 3363459, 249861, 2363621, 1888273, 1151073, 1724567, 4027227, 2584923,
  2650713, 4133831, 2216159, 954381, 4723365, 2240613, 2511291, 3609217, 3764781, 3100821, 1200225, 4084695, 1839211, 1134603, 1028109, 782463,
  913461, 1527839, 1716403, 3838635, 684051, 2216159, 3371387, 807013, 3002681, 2756655, 2084967, 6582829, 1593691, 4026811, 2797861, 1773915,
  1871909, 1773605, 1159395, 913509, 667787, 864429, 3027155, 4084521, 1962217, 708637, 2486693, 987333, 806959, 3387853, 2011515, 1798401,
  1052899, 1716373, 6591947, 3371357, 118797, 2830793, 1798343, 1110215, 4453139, 6345077, 1552743, 364551, 4305053, 6115975, 3150171, 1298479,
  1151005, 2306287, 1429797, 3395981, 290829, 1257603, 2429059, 1052695, 364549, 1814691, 520197, 2240913, 4149747, 1380585, 274491, 1962175,
  5255979, 4346319, 1134789, 2134179, 2306289, 5231539, 3314097, 2240709, 929905, 684183, 1888507, 2773089, 733347, 3806011, 1593355, 3371237,
  1028263, 1552401, 290839, 2527305, 2511309, 1716375, 1110167, 987275, 610363, 1913055, 807049, 684129, 806973, 1912837, 1077471, 864447,
  2650341, 1503539, 1028289, 741527, 741383, 1765567, 1446099, 2085273, 1421475, 1568809, 643169, 1642549, 1134821, 3166357, 462955, 4968797,
  3608727, 1445893, 3879511, 4256133, 938183, 3321935, 1798367, 1527881, 2527803, 3633199, 979057, 3264849, 2011419, 782397, 3224051, 4452533,
  938133, 3518601, 1151113, 1380549, 1298439, 569441, 741459, 1626375, 733293, 1282271, 815295, 2453851, 413725, 1527845, 413737, 1962211,
  1421335, 979017, 708669, 3493997, 2510951, 987149, 1527975, 1134755, 2626167, 3363433, 438285, 3264793, 1150999, 610377, 3519173, 815151,
  1503333, 790571, 4453071, 2216025, 299013, 2461893, 2428941, 3322265, 938123, 2650173, 192517, 5313599, 569367, 790535, 938093, 790701,
  1159341, 1503515, 167949, 708715, 438277, 1994793, 2454003, 413703, 217107, 3388149, 249861, 1675461, 2945407, 643119, 3437271, 2945151,
  3732283, 1962297, 3493893, 2281539, 790617, 2011293, 3977313, 1888665, 1150995, 979041, 2797935, 1446027, 2904303, 1159247, 4305093, 1446015]

/-- entries 3072..3583 of `MILLER_RABIN_BASE64` -/
def mrBase64_6 : List Nat := [
  561235, 3363015, 3494489, 3043747, 1077319, 1994945, 4886571, 667715, 1716423, 1568791, 864407, 3363433, 1814719, 1101913, 2043909, 3838233,
  2085171, 2134327, 1839547, 2215967, 1871939, 1503293, 1798575, 6386187, 1077301, 1200355, 954471, 1101865, 364617, 1724769, 249887, 2650149,
  954549, 1470733, 3592785, 1888533, 3494489, 1888309, 610377, 1446171, 2044325, 733335, 1995171, 618503, 569403, 3592245, 1888449, 741489,
  5353603, 1273959, 1839171, 2830673, 299011, 790659, 6362407, 2461953, 53255, 1101903, 979023, 438373, 2674867, 151581, 733321, 5730575,
  1552511, 1380501, 2585033, 1995059, 446565, 1724445, 1798577, 2453509, 2454061, 446517, 1150981, 1298469, 1593625, 364555, 3510711, 2773089,
  1101891, 2330781, 3043551, 2142359, 6582499, 2281779, 2650659, 3805495, 1151173, 2084943, 913557, 6026145, 421925, 2339205, 1528041, 708637,
  782515, 1765735, 53255, 4919663, 3363085, 3854785, 1298505, 1421317, 1134611, 2134329, 1675283, 2486451, 4624641, 364605, 3076673, 5066781,
  1626485, 1995003, 3027125, 618563, 28677, 118803, 987207, 2011141, 340011, 1077447, 815261, 1101853, 2011299, 9875461, 1552623, 864393,
  2216243, 1994849, 1077309, 1421341, 2429281, 1593445, 1257713, 1257603, 2453661, 1101837, 2757039, 4002109, 1077489, 2527641, 438301, 1568785,
  1134821, 3436851, 364551, 807039, 1200397, 1527851, 733293, 3732055, 4494165, 364573, 1913025, 1773761, 299069, 1429551, 708757, 1200325,
  3904129, 397325, 2216199, 2011263, 1528115, 4968615, 1257501, 667715, 2142213, 1282205, 1675271, 806953, 3395825, 3510949, 2904497, 1765473,
  2625675, 2060325, 3518523, 3149933, 1528001, 790587, 2978385, 1527869, 1445893, 438333, 2462273, 2634315, 1355817, 462861, 929851, 1077487,
  1626465, 2756799, 249887, 1552421, 2142717, 1528079, 3436575, 1429773, 1896687, 421917, 987363, 790557, 2634335, 1527947, 241705, 1724487,
  323607, 5338371, 3371039, 1077505, 979071, 4542565, 1200171, 2404449, 3363225, 1896561, 4002213, 1503509, 1134611, 1298665, 2134083, 2240621,
  2461953, 667651, 2977895, 1380461, 1962331, 5574697, 1839261, 520229, 3264675, 364615, 2830593, 1151059, 413727, 2281839, 4494223, 2330991,
  3313725, 790551, 2453935, 7204967, 1274019, 864315, 2240795, 299021, 2044005, 1355889, 2904347, 1839487, 2486313, 3371049, 339987, 618593,
  2404357, 5067405, 815115, 1724775, 3100781, 6099557, 3387583, 3002631, 2330787, 2044041, 462853, 2060667, 5280351, 6066367, 610405, 3494199,
  1282155, 741473, 2330707, 4150245, 3518631, 4600737, 2461893, 3027465, 2461907, 1527813, 2650149, 1995111, 929973, 5067299, 1273917, 3371781,
  3494235, 1773635, 979023, 2626057, 929797, 1798427, 1896807, 1134621, 1102023, 2240753, 708687, 4968467, 1470615, 2011597, 4231395, 2650285,
  1110125, 3166371, 2707461, 1871885, 1028235, 610347, 1912911, 1257665, 3362899, 3371265, 1356015, 1871975, 1429547, 4379351, 806995, 4887159,
  438291, 1421331, 1298605, 929875, 733189, 1773795, 1913011, 2281483, 1028259, 4346709, 2904095, 1282109, 1912989, 733323, 2216397, 1568919,
  2306155, 1282061, 126989, 1200369, 667797, 364617, 2216169, 929901, 241683, 2216315, 1134743, 299039, 1724709, 4231211, 3100685, 1446235,
  979027, 1101843, 3264555, 5288379, 2281603, 2798221, 2634125, 1257539, 6090855, 340009, 2429121, 2142647, 520295, 1872255, 5288987, 806995,
  1151113, 1380515, 4133141, 2134449, 2240819, 2060305, 1888407, 1626419, 979027, 1052731, 217095, 913427, 1552473, 1470691, 2830937, 790551,
  1257585, 4026889, 1200397, 1503245, 684189, 1568865, 1134723, 2707955, 2511245, 929919, 3150365, 3166311, 1052725, 1298643, 2429017, 1896555,
  3223925, 2331181, 2633825, 45059, 1470727, 2060635, 3002609, 438277, 643115, 4297191, 913557, 3223571, 1798275, 708667, 913521, 2945055,
  1724421, 1110123, 929875, 733243, 1716405, 3961293, 1503299, 3313687, 438277, 438277, 421901, 1552535, 2085285, 1773749, 2085055, 1593367,
  4986019, 987333, 938123, 1995135, 1356083, 4084679, 397359, 1773839, 3002939, 667689, 421977, 421907, 1028329, 782437, 1052733, 1257713,
  978981, 954429, 1421401, 2461709, 3518493, 1421325, 684159, 4256027, 790569, 2338913, 815123, 3879169, 1913181, 1446027, 1273859, 1421569,
  3265099, 1814835, 241669, 2707517, 1470697, 1298671, 1101927, 2707889, 2773285, 3388039, 2699647, 1110183, 2084971, 2904255, 2945527, 2797705,
  3838419, 1593367, 1052733, 3314407, 2281803, 2240793, 864275, 2634341, 1298493, 3764577, 1356083, 1200135, 536605, 1429571, 790691, 1593445,
  2584595, 3633973, 462885, 1134759, 1994993, 1445917, 1675365, 3117327, 299019, 733281, 1798317, 5435759, 249869, 3510585, 1872183, 1151203]

/-- entries 3584..4095 of `MILLER_RABIN_BASE64` -/
def mrBase64_7 : List Nat := [
  1552715, 3076247, 438351, 561265, 1380533, 249863, 2527333, 5239091, 1798301, 4625171, 4149601, 569481, 520239, 1355805, 1814565, 2134209,
  1724763, 1839145, 77835, 3265251, 2830979, 4346475, 2462237, 1872321, 1528071, 3436647, 1355955, 536587, 1446069, 1101829, 1052853, 176145,
  4575413, 3362929, 979141, 274493, 1421379, 2871303, 3027671, 2339165, 733255, 3437287, 274469, 806917, 3322029, 1528005, 3617277, 1101883,
  2699643, 569391, 2871547, 1994825, 438309, 299039, 1380645, 1642501, 1134651, 2830613, 1274023, 1527905, 1134815, 1814761, 1421385, 1446127,
  3043359, 1896555, 1716403, 2142485, 5574933, 2699515, 4379033, 2339127, 1839315, 2511425, 1273929, 3977497, 3535509, 741465, 1765773, 126999,
  2060745, 2011375, 1429523, 3903847, 2306385, 1134633, 3715515, 569427, 1888327, 1134815, 2633795, 1273915, 3617127, 2634335, 536605, 2085037,
  2707917, 667695, 954475, 1200351, 2085367, 2977863, 1298445, 1380393, 462921, 1282199, 782367, 397401, 987149, 1102023, 290853, 1274067,
  364581, 1552397, 1101855, 2363705, 1765483, 1298515, 1077253, 1110077, 2338919, 569481, 3437245, 3076323, 1503513, 1839261, 1798517, 1134595,
  3101373, 913601, 2756967, 938007, 2830587, 790607, 1380623, 1110125, 462891, 5894241, 413709, 708651, 978957, 413709, 741447, 1568997,
  708691, 3436785, 3715869, 1110077, 2330935, 2625549, 3805831, 708709, 1716555, 790679, 929875, 446567, 1888359, 2511351, 2945407, 2363823,
  1159445, 2584943, 3150285, 1446027, 3592385, 1200195, 2011443, 7132803, 1429737, 1765399, 5846223, 1273861, 1912837, 1200295, 1028175, 4378713,
  2084973, 3363385, 6959963, 1773605, 1150993, 1445919, 3805495, 1421395, 2453905, 1282317, 1380411, 1569147, 1134701, 1380665, 561255, 2044185,
  733201, 1101871, 643119, 1896479, 1962385, 2830647, 1470577, 4919603, 290829, 1200301, 1257495, 1257533, 987219, 1568805, 1896659, 4518025,
  2142251, 1150983, 1593415, 438289, 864335, 1445899, 1077265, 1470603, 274485, 3100965, 1134681, 1994915, 167941, 1626335, 1593501, 1503581,
  3805425, 1028163, 741423, 954373, 167949, 94213, 1470817, 987195, 446523, 2584587, 1888335, 4231565, 2330695, 1888345, 2584805, 2281803,
  1273903, 864317, 913517, 3223899, 3314433, 1626155, 2830613, 2535651, 1257491, 274491, 782343, 1200301, 290845, 2281711, 2978315, 1642803,
  2773263, 1052761, 2584839, 4059795, 241693, 1355957, 3314121, 1724433, 807015, 1077267, 1257503, 667661, 53253, 3518735, 1896857, 2060479,
  1134623, 3592343, 1052785, 684051, 1445961, 1552455, 446507, 2363871, 1552421, 2904335, 569351, 1134759, 684159, 1724747, 397341, 2060397,
  299045, 2363729, 536595, 1995195, 2634185, 2240909, 1593387, 1200321, 2830467, 2404435, 5894185, 421977, 1568931, 2904227, 2945487, 1282149,
  643109, 1642653, 2060749, 421929, 1274049, 1200327, 979047, 667665, 1642747, 192541, 3510523, 929821, 929821, 2773329, 1912837, 4477367,
  2363529, 3027215, 1150987, 1839127, 1839171, 1028325, 2584733, 1724469, 4223049, 1077253, 733357, 1298445, 2535555, 2011177, 1888615, 1994981,
  3535531, 929859, 643139, 339991, 1445991, 1872003, 1355813, 1896729, 1765507, 4477949, 4379645, 2216357, 3854397, 1355807, 94227, 2871759,
  3616899, 4059483, 1896491, 364597, 2511159, 1077357, 167967, 1445895, 5010219, 4600239, 2462097, 2797875, 3002451, 1626323, 1839241, 667721,
  1569099, 4173843, 3322473, 4182287, 4296793, 987189, 2404635, 1445917, 1995069, 364549, 3904315, 536703, 1429841, 1151065, 978981, 1273875,
  1839193, 733267, 1503305, 4919633, 4542955, 1159229, 4984893, 1110021, 1896677, 4297101, 2240921, 938177, 3076275, 1355781, 790557, 1159317,
  3363339, 954477, 1421511, 3494459, 3535125, 4518445, 1552613, 1380545, 569441, 3363277, 4149559, 2011509, 1159239, 2404711, 864275, 4231173,
  2363729, 1028101, 3904147, 684105, 364549, 806917, 1110183, 1871925, 4084575, 913535, 643161, 2830443, 2281545, 1446115, 2904333, 6115375,
  1159229, 2044347, 1102075, 618509, 929805, 2756747, 1568827, 3371201, 118807, 1503371, 1052901, 6362611, 1642729, 4084533, 610377, 1642563,
  3436977, 2650191, 938133, 733191, 2511417, 323657, 741473, 2511245, 2486339, 1912893, 864357, 1962181, 938151, 1552733, 1134689, 1593507,
  290863, 1552617, 4027221, 2625675, 2486739, 1765381, 364557, 249869, 1298469, 1568997, 2281501, 2363519, 3117279, 4723121, 1274107, 610357,
  2633751, 5731065, 667761, 1355939, 1159247, 2773365, 1274005, 2674819, 3166419, 929941, 2011335, 1282311, 2306469, 667653, 561189, 2511195,
  5157861, 2510951, 1773791, 979135, 1380563, 815243, 1593525, 3510945, 1675269, 151571, 1151083, 864369, 2945341, 446561, 3854367, 3149921]

/-- entries 4096..4607 of `MILLER_RABIN_BASE64` -/
def mrBase64_8 : List Nat := [
  4149277, 217125, 1814617, 2453575, 2330961, 2756865, 1765687, 3764685, 241669, 3076535, 2363801, 192543, 954405, 954399, 3608949, 1274067,
  3027635, 667685, 1773807, 520239, 2043993, 806949, 1724487, 806943, 3535657, 2462295, 5009491, 520289, 1798155, 1282245, 1765777, 2060395,
  3715859, 3510313, 3043399, 3608743, 2699443, 2650125, 667661, 667709, 2134033, 1642869, 643133, 1626209, 1552595, 1421539, 2871301, 2535615,
  2904291, 987225, 1282187, 299045, 340009, 421955, 1429547, 1028203, 561183, 3076119, 864383, 2773285, 6632487, 28677, 2134365, 3150183,
  7738791, 790575, 3150117, 4231319, 3633189, 438283, 69643, 2404503, 1994981, 2773095, 667707, 397371, 3043971, 3436567, 815157, 733191,
  3592631, 8107705, 3510505, 1200399, 3314281, 520259, 4297143, 2625969, 1052715, 2650153, 1593451, 3592545, 3960929, 3592245, 3395711, 1552611,
  3437277, 1503321, 536587, 978973, 3150507, 1527821, 249861, 2134413, 1626173, 323627, 1257501, 2510919, 4174611, 2945197, 176145, 536689,
  3854949, 2756721, 1896689, 3002499, 1839441, 77831, 2216439, 1101987, 2625703, 3363039, 1298683, 2404549, 3510313, 2584847, 864293, 806973,
  2757065, 4133303, 782425, 1077445, 2486681, 536649, 1962013, 2134069, 1724589, 1626381, 2240709, 2625607, 3117477, 979053, 462855, 1716247,
  741533, 1151239, 299079, 2404699, 176131, 4379445, 397329, 1773657, 1994831, 1716603, 4026835, 1814875, 1052895, 1355819, 397317, 1568815,
  1871901, 1503299, 1298673, 1429527, 2339385, 3166711, 1765393, 1773665, 1052823, 118797, 5231745, 1298659, 1773905, 1765465, 438309, 987287,
  1421625, 2404509, 3535371, 2339265, 299021, 1052769, 1798395, 520289, 5231071, 1134821, 1380381, 1274029, 1552635, 1110155, 323621, 708717,
  782449, 1962225, 6468203, 1716375, 1134695, 667785, 323591, 6115959, 1552397, 3026957, 1716481, 1912983, 2486711, 610443, 987207, 69637,
  4296897, 1716501, 4837729, 807093, 28677, 4132917, 1626141, 2085097, 3592529, 929803, 2216217, 1429565, 1052751, 3879669, 4764091, 4518039,
  610309, 1896717, 1642609, 2527411, 3608683, 5329363, 241681, 1282115, 561193, 3117237, 1675301, 397317, 1101867, 2216333, 274437, 364617,
  462937, 364573, 2330637, 4493685, 323591, 2633835, 1445949, 954435, 274475, 1429571, 1913263, 1527851, 1724687, 4150105, 1552757, 2453671,
  1962393, 782409, 1528005, 1839367, 3002831, 2978225, 1798575, 438303, 364549, 1151037, 1101853, 2527273, 3854467, 2134227, 536647, 741379,
  1642765, 364549, 1257531, 1159295, 3100989, 2486379, 1814611, 1257485, 1446115, 1028263, 561169, 1798575, 1765759, 299051, 2978021, 151581,
  3265245, 520245, 2625735, 2527411, 3904309, 1380405, 1724805, 1273959, 2650263, 2830395, 1814791, 397379, 274437, 2527515, 4026831, 1052677,
  3732063, 413733, 1814679, 708651, 3608935, 913461, 2625853, 1274049, 1896671, 1110021, 1527921, 1626141, 643085, 3960999, 790707, 929931,
  2486631, 684159, 520215, 1298445, 2011603, 2904483, 2945155, 2363541, 192531, 1995105, 2330865, 618557, 1134689, 1798425, 3224073, 536685,
  741449, 6271685, 1962297, 610375, 1503255, 2339249, 1962255, 2486843, 3264685, 1380563, 1421409, 3027587, 2060301, 364585, 3764487, 1896681,
  1446127, 1028185, 2085213, 1355939, 1028209, 610405, 2134425, 413755, 2486319, 733281, 4862131, 1102065, 815241, 4296985, 1257765, 2331133,
  1814635, 708775, 1077477, 1110257, 2084973, 3117789, 2363723, 1257485, 3224001, 1773725, 4059359, 667751, 4133771, 2044035, 569381, 643109,
  1593607, 2044017, 2429091, 3150563, 323587, 610417, 2060385, 1626141, 2584809, 1814929, 1912989, 1282161, 1888273, 3977529, 2904069, 2060767,
  5157297, 462859, 929949, 561165, 1077499, 1150989, 5952035, 413709, 1077309, 815163, 2527321, 4838173, 1274055, 3879631, 5845005, 2486763,
  1888467, 9286131, 2306061, 1101853, 2535495, 1626117, 1642843, 2363741, 1896471, 2142711, 2798185, 339981, 446477, 1896837, 1421625, 3002439,
  2707461, 864413, 2707805, 1626251, 1257575, 2945107, 5042403, 1028133, 5624931, 2674729, 323645, 741503, 3027027, 1102065, 1814841, 4886709,
  1716285, 2404355, 1839133, 2904171, 806949, 536589, 5239091, 1626261, 913535, 3149829, 1773599, 1200159, 3511095, 1503315, 3076757, 2625807,
  5280091, 1159317, 290845, 340029, 4084071, 2585177, 2461809, 536629, 462927, 1765647, 1282311, 1552403, 2904741, 2584985, 3960945, 1110063,
  2044127, 1470523, 1765723, 2363493, 2633741, 782467, 806955, 340021, 1642515, 864437, 2797899, 2773435, 3101069, 2584845, 1798493, 2527399,
  151583, 3903729, 2584869, 610323, 340005, 2904605, 1470747, 1724699, 3321885, 3100911, 3977715, 2044215, 815133, 954595, 3493925, 1421623]

/-- entries 4608..5119 of `MILLER_RABIN_BASE64` -/
def mrBase64_9 : List Nat := [
  790533, 1052883, 1839373, 2142617, 1724775, 2486499, 708745, 643085, 643199, 3322119, 667691, 2756637, 1380483, 815151, 69645, 2486681,
  938027, 1134783, 1896461, 5731343, 249909, 2060709, 1257699, 561199, 4469137, 1503465, 4149277, 1773573, 2871495, 10475849, 913581, 2650621,
  790541, 815117, 3223791, 1724639, 5943969, 1446199, 1552491, 561165, 979143, 2453515, 561183, 2510891, 807085, 913469, 1593471, 2707935,
  1200319, 2060685, 1962333, 1593507, 2060347, 610315, 3608589, 2011623, 1995111, 2625819, 1257729, 3977703, 176135, 667785, 610323, 2756711,
  2634107, 1724693, 1552403, 1626501, 807079, 1274107, 3150483, 2527599, 4518639, 1110153, 1913065, 3854547, 3117109, 4174221, 1839513, 569381,
  1052701, 2699371, 438279, 782353, 1888483, 2535555, 2084887, 2486535, 1642575, 2756801, 1257699, 5575143, 1134605, 4027287, 3362845, 708655,
  1814617, 2453947, 3535467, 1568857, 815207, 2461953, 5312775, 1552595, 3117765, 1528089, 299011, 1962295, 1470553, 2134213, 421955, 3150075,
  1052689, 2339279, 3322503, 1569039, 1445971, 1257513, 1675541, 741555, 987139, 3166441, 1839331, 1593601, 1593577, 1028113, 1716253, 4174633,
  2511455, 2633967, 1028335, 7737405, 3764963, 667659, 2904147, 6271245, 4379645, 6434821, 1028205, 1421355, 978973, 2044263, 2945391, 3838301,
  2363669, 913509, 5313509, 815301, 536599, 929973, 1642557, 1716465, 2527483, 53251, 1569147, 2142717, 3166885, 1470573, 3608613, 2216445,
  1200175, 1052895, 987179, 4354067, 3617367, 1470505, 643145, 6099183, 1888527, 2977863, 987149, 2011243, 815297, 2707529, 167943, 2084937,
  2650405, 1814821, 1134843, 2428941, 3076227, 413755, 5288723, 1716313, 938211, 1298475, 167949, 94227, 438283, 2338845, 610365, 3101021,
  249867, 2675179, 1151115, 1962081, 1642735, 1052839, 1872261, 1446195, 397379, 1773573, 684169, 929973, 929797, 1896641, 438375, 782463,
  954475, 9410035, 3166477, 913437, 1101865, 1912873, 520197, 2216063, 2339363, 1052799, 1110209, 4182239, 3150137, 2142357, 684049, 954561,
  1716355, 2142407, 520205, 2535653, 536647, 2527489, 339985, 438355, 2216217, 1675437, 3101363, 1773699, 2871427, 2363913, 1593703, 929931,
  3731865, 520205, 3150003, 938165, 1994793, 2330857, 2281669, 2511215, 3878943, 364591, 1642879, 3805825, 864323, 3002531, 1593351, 610309,
  2527399, 618509, 782367, 1134633, 1552697, 2756925, 2060445, 1429773, 1077471, 610365, 1839283, 2011141, 2674999, 176169, 1527921, 3314131,
  3903645, 6320787, 3002651, 2428933, 2461763, 1839231, 1134629, 2429125, 5042343, 1765605, 1724423, 2511119, 2281959, 1273929, 2363603, 4182837,
  3608649, 2281669, 2011519, 2486873, 4083969, 3764451, 2404389, 5116283, 2306449, 1110249, 1150987, 684139, 126995, 1028193, 2625693, 790691,
  3518567, 1429661, 2511021, 1773647, 782367, 5403231, 569349, 520239, 3371577, 1101921, 667653, 929991, 151555, 938163, 1028143, 3609153,
  1429701, 5411703, 2043941, 1675277, 2240819, 3494615, 1593711, 1355939, 1773761, 4296915, 5952509, 3535467, 618605, 446469, 1077411, 815115,
  421893, 5869573, 249875, 561223, 5034055, 708645, 4026825, 815177, 3076287, 561195, 3117093, 1642579, 462901, 2011159, 569441, 2044067,
  1765587, 118807, 741389, 118789, 3960963, 1298541, 1798293, 364557, 561225, 1872095, 290847, 1724459, 1871901, 3166959, 1101925, 192519,
  1282329, 1257695, 1429727, 3879831, 3731637, 2011485, 1101963, 2011293, 397395, 1593543, 1626275, 5330125, 69645, 3395627, 249893, 2044235,
  3026967, 4599999, 1716291, 2798109, 249885, 3854923, 929829, 3592461, 1052743, 1798491, 2756613, 4354179, 2085177, 2650309, 2044173, 299045,
  2773005, 2707635, 954507, 1159407, 2675257, 4763905, 1159349, 1569075, 1257609, 397325, 1298503, 3436645, 1429617, 1552623, 3117699, 1716265,
  340041, 1159341, 2674869, 2830485, 536673, 2142561, 1200265, 2429155, 1675595, 1798511, 1994795, 2798175, 1724517, 1839463, 864365, 2404357,
  569357, 1724655, 8303365, 3535581, 954541, 1888293, 340047, 2240621, 1593381, 1888527, 1675343, 520221, 3494475, 618645, 782475, 397325,
  2904641, 2486315, 1675377, 569445, 1765477, 1568869, 4084091, 323643, 1912995, 536689, 4304933, 1356045, 2281533, 4494231, 1626213, 2904105,
  1503489, 1101975, 462931, 2429001, 1282061, 741555, 462927, 643209, 3223593, 2773623, 4862065, 4862553, 397315, 4297651, 2625727, 3436861,
  5575717, 4305269, 3879849, 3608619, 217131, 6959535, 806941, 413707, 438361, 1052901, 2330857, 4469713, 2306319, 708759, 1888485, 1724435,
  536635, 1159445, 1077429, 1798407, 520205, 1773965, 1798545, 4223139, 3715173, 151575, 1814569, 3027515, 1839435, 1888527, 1282107, 3117325]

/-- entries 5120..5631 of `MILLER_RABIN_BASE64` -/
def mrBase64_10 : List Nat := [
  4887625, 1282119, 1470757, 1110033, 3535015, 3854757, 790691, 1503341, 2240679, 2797831, 2085355, 3027081, 2511357, 864357, 1872185, 4354077,
  3166501, 1888453, 274455, 290821, 3043417, 2535605, 1159401, 339981, 708757, 2535615, 2527735, 2330991, 323601, 3608959, 618597, 176139,
  274475, 1101829, 3535491, 741407, 1077315, 2461947, 1642833, 9171237, 684093, 954579, 2510945, 3633729, 274437, 3518505, 978991, 1028115,
  561211, 249897, 1470663, 618645, 2707613, 4059375, 1913293, 1773809, 1159341, 2707583, 53253, 1552731, 241695, 1282317, 667779, 6812669,
  2429211, 2060731, 1282239, 782515, 1765639, 4256553, 4838283, 733293, 3322533, 536599, 4149267, 1773627, 1724429, 4002469, 2773015, 1569117,
  929893, 2306095, 1724699, 3100761, 2142225, 3371219, 299013, 2945733, 8655707, 364605, 1445917, 1642855, 684189, 708771, 1888273, 3854803,
  1273861, 1298673, 1273917, 1421541, 1527915, 610317, 176139, 2584955, 2404509, 192549, 1675413, 741503, 2486579, 69637, 1355817, 708697,
  4797507, 2330653, 1101883, 1839477, 3510333, 2675287, 569373, 1273863, 1282305, 1839277, 1626149, 446505, 1134783, 176147, 3616869, 815133,
  2363519, 1724825, 4624493, 1773801, 2486813, 1552481, 1568931, 1298683, 610341, 1134653, 1200285, 1421365, 1773629, 2404785, 807063, 2773393,
  741393, 569381, 1593537, 1274149, 6582285, 536599, 2756615, 1773765, 1773881, 1134629, 3027435, 1273861, 2142629, 733321, 1626461, 979101,
  790587, 2281503, 3616875, 2977919, 339979, 1200279, 421971, 2535435, 929859, 978949, 364605, 3395763, 413763, 3518703, 1159331, 1159221,
  3838265, 1912837, 1839175, 3592749, 2306247, 979053, 1077285, 987245, 979005, 782473, 1773845, 2281753, 2904671, 1421625, 2134077, 462951,
  2675085, 1724469, 2044001, 2338845, 1552607, 4256321, 561193, 1257743, 3117457, 2584613, 733231, 1380635, 2338905, 741379, 2215949, 3903987,
  954579, 6639953, 864345, 1888437, 1028253, 1134663, 733245, 2363481, 1028143, 643211, 2240615, 339991, 1110147, 4600035, 3100935, 643131,
  1421539, 1380381, 1569085, 2404549, 2281545, 1994979, 2756955, 937997, 4625195, 1200265, 610401, 446477, 1724795, 2511015, 364567, 987363,
  1716297, 446469, 1626155, 1257621, 4862065, 1552457, 2904531, 4919753, 339991, 2650633, 4920035, 2060301, 3395765, 5402895, 462907, 3854883,
  2011533, 3043333, 1257611, 954421, 864405, 2404357, 3002531, 2584827, 733203, 684115, 3609303, 1282079, 413719, 413749, 4969055, 667709,
  1527957, 1962165, 3076605, 987173, 2536011, 4149901, 1995219, 1675317, 520205, 3313875, 3363363, 2331081, 1962051, 1134773, 987225, 1159437,
  1274005, 610383, 1765379, 1159187, 1102053, 1896761, 1429533, 864423, 3264517, 1134605, 2904131, 536649, 2486775, 3715791, 618575, 1765755,
  4231677, 667679, 1962135, 4149631, 4026937, 1773669, 2511335, 2281893, 2904297, 364563, 3027537, 1134693, 421901, 1159401, 1962147, 1896495,
  1503275, 1380395, 1913253, 1470477, 1503495, 1675353, 1200165, 3731875, 1716537, 1527821, 3371781, 4256691, 2650117, 397365, 610341, 3117729,
  643221, 618567, 6664593, 69637, 1765617, 126981, 4297213, 1503381, 1839157, 4026549, 1273869, 2454013, 2904473, 954457, 1298521, 643133,
  2429295, 1798407, 561175, 1052839, 1896561, 1626201, 1429661, 4231625, 4468987, 4543233, 1839505, 3100779, 5009647, 5870181, 3314011, 340015,
  2527503, 618537, 561189, 1298535, 1626309, 1101865, 610407, 1839207, 3150387, 1839261, 4452615, 733189, 3100709, 1028325, 6116311, 2404893,
  5895157, 2134069, 1446159, 1773585, 2339013, 2461835, 241669, 6435247, 2797881, 4002249, 299069, 708747, 2453905, 3805771, 2945263, 1716391,
  1642719, 1765605, 987375, 2142213, 2044077, 1380659, 2773105, 2428965, 2453863, 667709, 1814811, 5951501, 3076359, 2240933, 1552521, 1274053,
  520251, 1429773, 3395757, 1298503, 1151065, 1675343, 1626471, 1200141, 217101, 3117699, 413749, 1429557, 741459, 1274007, 2339045, 2797647,
  323657, 1445977, 806925, 1282179, 667761, 1052739, 1642519, 1839147, 2486711, 3076703, 1568899, 3027101, 1159247, 1257513, 1675361, 2306535,
  1052835, 1798191, 4575455, 446475, 2773479, 323621, 864353, 2085001, 3265171, 1716541, 397385, 1151037, 1200241, 3715151, 2216169, 1642533,
  1872083, 249909, 1716283, 987155, 1765669, 1257639, 1568949, 815301, 1765479, 643179, 2429259, 1298661, 462853, 4575549, 1101903, 3149991,
  1527939, 3371069, 364549, 520259, 2330691, 462919, 462909, 2486549, 446501, 938013, 2060499, 790607, 2043917, 1995191, 4001881, 2535663,
  1675377, 733357, 1470469, 1159181, 421949, 3264879, 1421341, 1429523, 1200201, 2486283, 1995119, 2584659, 1355823, 708681, 1421569, 954439]

/-- entries 5632..6143 of `MILLER_RABIN_BASE64` -/
def mrBase64_11 : List Nat := [
  5574913, 2584683, 536607, 2306379, 790617, 167955, 1724795, 938175, 3002817, 790607, 1552481, 2306427, 1995023, 6959235, 274455, 2650633,
  3805675, 1552485, 561255, 5829527, 913599, 3855163, 2904465, 610387, 3002405, 1028149, 2060425, 397373, 790599, 167953, 708705, 1896879,
  790685, 790559, 806985, 2527495, 2461755, 2330955, 176157, 790659, 1101991, 2756865, 2511015, 2584923, 2363871, 1568821, 954519, 323627,
  1356045, 3265221, 1298589, 2830689, 167947, 1077429, 3117145, 1282287, 782443, 2429367, 3616805, 6099207, 1814947, 1257599, 1872261, 4297735,
  1896621, 4084079, 299051, 2281713, 1503495, 1151007, 684045, 364591, 3027317, 3027185, 2453853, 5238825, 1110255, 2044013, 807091, 1421317,
  462949, 1077505, 1569127, 1716403, 1626201, 1626351, 864297, 3617451, 1798377, 1896671, 1724457, 782415, 1077387, 1716421, 2699763, 3265165,
  1101835, 290863, 1798533, 2674741, 954517, 938067, 1962381, 1593583, 987159, 1527891, 815109, 3609039, 1642879, 299039, 3510331, 151565,
  421929, 1626215, 1298709, 1355789, 2625847, 1159185, 1961989, 2945685, 2674797, 2331171, 2510855, 1896585, 1773741, 2634315, 446561, 979045,
  733335, 2650143, 733187, 733293, 1298529, 2453601, 3027375, 1994855, 2363531, 1159275, 1765479, 864275, 987159, 2429197, 1077411, 1355829,
  462853, 1528077, 987267, 299061, 2281603, 1470801, 864357, 5239751, 2339165, 1814805, 667745, 4346547, 438289, 1356033, 3223611, 954451,
  1052845, 618503, 1994889, 1298599, 462955, 2453983, 1282053, 3396335, 3117093, 1503413, 1626491, 954561, 618533, 4346695, 3838151, 3519065,
  1765389, 1814937, 421911, 643115, 937997, 2142365, 806955, 1028197, 1282149, 1798541, 2527651, 643169, 1839175, 94213, 1626443, 3150273,
  1421323, 1282227, 741443, 413743, 1077505, 1101921, 1470565, 987245, 938085, 1872009, 4453383, 241677, 1273909, 1257491, 2830775, 274485,
  536581, 1101861, 536629, 1159445, 6238281, 929839, 1421503, 2306457, 954421, 4231451, 2756945, 446493, 3265081, 1446169, 790701, 913511,
  413737, 1839417, 421901, 364567, 4304993, 1724435, 1503293, 2060619, 2904377, 2625993, 3027195, 1159221, 3224123, 1077477, 339997, 3149987,
  733255, 6345213, 1871933, 1110087, 1470523, 340009, 782443, 1912891, 1356045, 290883, 4919495, 1429817, 987263, 2330667, 1675323, 1159229,
  1773725, 3903625, 2330731, 1503495, 4886859, 1446039, 954381, 2044143, 2084947, 1151155, 1773611, 2527699, 569417, 2773515, 790551, 3166309,
  610441, 1028143, 2674851, 1675401, 2633817, 3166575, 2142239, 1028155, 1527911, 3027405, 667715, 3076673, 684195, 3322625, 3592575, 1257645,
  3805935, 569453, 1888449, 1257545, 2674995, 1257513, 1298445, 2339043, 1134749, 2945125, 1913011, 446475, 5952441, 1429767, 815109, 2044323,
  1159445, 2363841, 987333, 3395657, 2634011, 2585037, 249915, 2281629, 1282085, 1528041, 3264705, 1675401, 569381, 446501, 3314265, 2756807,
  790679, 2757071, 1110027, 2756879, 3027327, 3978075, 5845215, 5870427, 2142279, 2216243, 167953, 1765689, 3494111, 618563, 2282019, 2699611,
  2404359, 2134019, 1429527, 1134701, 913479, 3838395, 2216243, 2527269, 2453731, 2331087, 1626125, 1273861, 438343, 1052911, 1380461, 2306101,
  3592641, 733189, 3043737, 3854403, 1798323, 2904123, 6640839, 1101903, 2044313, 987249, 1429517, 3387559, 2486729, 2625975, 1642569, 684115,
  1839187, 3117097, 929895, 1355817, 4133057, 2634359, 2060731, 1527839, 520305, 1077267, 2363835, 1429841, 2461805, 2904257, 3076757, 1839147,
  1380455, 3387709, 438351, 2044353, 2486609, 3322469, 2625849, 1102051, 1356017, 2142389, 274461, 5289065, 1593481, 217091, 290839, 561261,
  2486711, 4173891, 1110195, 1134605, 782503, 2142675, 1134633, 1200355, 3879145, 397329, 5976453, 913421, 864323, 274491, 3027101, 3977859,
  1257525, 1724613, 1798181, 667761, 2977889, 4469175, 1380357, 3764495, 1159331, 3437371, 5600253, 5067633, 561165, 438339, 6026043, 2511221,
  1814821, 815109, 1675595, 2306449, 2527513, 520281, 708717, 3002471, 1962295, 1773759, 1962267, 2756757, 1151005, 987299, 6090775, 1200135,
  1888275, 643089, 2339237, 561255, 1773581, 806959, 4174501, 1380593, 4452533, 4797525, 1445941, 217131, 569471, 1503245, 2871475, 643169,
  1839543, 2453857, 2453947, 1724765, 299031, 3166407, 1151107, 4378787, 3076737, 1282197, 1274079, 3002381, 1052751, 1282199, 2339273, 815109,
  929973, 1765389, 1052901, 1593651, 979135, 1355927, 2707499, 618603, 3715629, 618509, 2650731, 3101055, 4346443, 733251, 2330857, 864303,
  1110129, 561213, 3076403, 2281503, 2871897, 3322497, 3395589, 6320829, 1675545, 2085145, 3805453, 1839171, 413755, 1470517, 249909, 1896815]

/-- entries 6144..6655 of `MILLER_RABIN_BASE64` -/
def mrBase64_12 : List Nat := [
  708745, 2527795, 2650209, 864261, 1995015, 2773051, 118795, 413725, 643139, 2625915, 569471, 249887, 2699431, 1110215, 1872239, 446495,
  1626449, 1429695, 1077321, 323589, 2675127, 3313893, 3117687, 741447, 1962217, 462853, 5288357, 3437301, 299069, 1912879, 1528119, 3117163,
  1028223, 2084931, 7501559, 1552491, 3043927, 2216165, 1626191, 667677, 3002889, 938123, 1569099, 1429781, 2330737, 2650551, 2142389, 1568959,
  2085093, 6639885, 2085091, 5239971, 2330863, 3592641, 2216133, 1839331, 290847, 3264943, 5353825, 2773273, 684169, 2756819, 274461, 2527689,
  290869, 3608755, 2585007, 364557, 667745, 4764799, 2044337, 1626171, 3264529, 1552407, 7910199, 1814541, 1962291, 1552491, 4001809, 3150225,
  643223, 643185, 1814901, 1888317, 1871999, 1642533, 2453871, 2330683, 5853191, 1552583, 5034175, 2363505, 3076599, 2281639, 536643, 6321035,
  733221, 2044055, 2134437, 2536017, 815133, 3633483, 938043, 569471, 536629, 733201, 1765599, 1077447, 2707839, 3166213, 1150989, 4494135,
  4026411, 561189, 864323, 2404809, 3387405, 1298539, 708765, 3117085, 4232109, 1282197, 1912921, 1569037, 421901, 667745, 2142515, 938121,
  5157351, 520245, 2044383, 1421539, 1429667, 2044097, 864407, 1568779, 1716481, 1626179, 2773053, 5230849, 2216169, 2142449, 1470741, 2977895,
  1446117, 2085313, 3592769, 1421551, 1355781, 1552389, 2085213, 4575237, 2797915, 782425, 2044155, 1888689, 790607, 2699323, 733287, 1052733,
  5329059, 2453995, 667797, 667701, 1626419, 913511, 1298623, 2429101, 1814881, 1798301, 1765389, 1912851, 4887261, 913575, 954531, 3510523,
  3371499, 2757047, 987275, 3879183, 3633511, 2584935, 520197, 3805231, 1962253, 364623, 151571, 1528167, 1642893, 3805531, 3510841, 815183,
  1028143, 1642833, 667787, 4468909, 1593621, 610443, 3437277, 1569115, 1110087, 937997, 3731919, 667665, 1446069, 2584845, 1355837, 2453507,
  1470475, 782509, 3314185, 3314083, 2134417, 1724475, 1380423, 340029, 938097, 1445931, 741479, 4886791, 1773935, 1527845, 561157, 2453773,
  6632511, 4133285, 3313971, 2339097, 1773597, 1888357, 684135, 1593681, 1773669, 2584955, 2216249, 4027195, 2330671, 2650491, 1765627, 241671,
  1839505, 708639, 2454073, 4084431, 4887201, 1814839, 3805645, 446487, 954373, 1716537, 151571, 438361, 151575, 1872219, 1101975, 1765543,
  987195, 5403211, 3732033, 2281743, 3043357, 1134791, 8302765, 938147, 938121, 413767, 1896549, 1101913, 1896779, 1503459, 462931, 2404795,
  1102053, 2338829, 438277, 1527989, 3117715, 1028205, 815145, 2535513, 987359, 807049, 1077321, 1912843, 1552695, 1355829, 413785, 2773585,
  2363841, 1962261, 339973, 2626099, 782403, 2060307, 3363489, 1716253, 2625667, 3043905, 2240859, 2584595, 520295, 2404929, 340005, 807001,
  53253, 1445989, 2650711, 45063, 2216379, 536629, 1052683, 643223, 1814701, 2404357, 5312541, 2085237, 2142225, 1872111, 2773563, 249893,
  3100745, 2339255, 1872071, 1642725, 3903619, 2756675, 954567, 618563, 1716571, 9393609, 2453683, 1159227, 1274019, 3764535, 913571, 118797,
  2240595, 954465, 1151143, 536619, 3593001, 438303, 2756639, 2011299, 151583, 4001797, 1503285, 806949, 2527525, 151557, 462951, 2429497,
  6238213, 2773549, 1773641, 2060745, 4174135, 3002735, 421985, 1134773, 667755, 1355789, 618527, 2462085, 3313683, 5951541, 3362853, 1101885,
  3076373, 3764451, 987155, 3879789, 6559279, 1429685, 3617625, 1798185, 864359, 1503501, 1773749, 561211, 790607, 2699277, 1421365, 4600449,
  1503371, 1077459, 4084019, 3002891, 1716271, 1994975, 421899, 8106063, 2134413, 1642677, 4027101, 5231455, 1814839, 2454081, 708681, 1446157,
  1429781, 1888303, 1421545, 1470603, 1355855, 1773779, 1814895, 979125, 2338973, 4223929, 2085133, 3519285, 2650675, 1200181, 5042259, 2281503,
  954465, 1961989, 1150987, 4222995, 913515, 3223691, 1052913, 1626341, 2240559, 4453421, 1642507, 806971, 2330931, 1077279, 2699821, 790617,
  4920083, 1134803, 864387, 1798415, 807039, 1257765, 323625, 1421569, 1257701, 987369, 192541, 2977835, 1380359, 3608579, 2675301, 2339039,
  806953, 2281561, 3224211, 249915, 2134297, 913427, 2330725, 2536037, 2945617, 1888603, 2871843, 4149559, 3617325, 2650501, 3535071, 913491,
  2043941, 438309, 290883, 1798523, 2904665, 3314421, 1470733, 2830565, 1995083, 1200225, 806959, 2871409, 1626179, 2904627, 1765567, 4862233,
  1421443, 561183, 3371067, 2404449, 4575235, 1159227, 1716475, 561205, 2707583, 2306185, 1872261, 708711, 2134243, 1298671, 2511161, 2757171,
  2281873, 1028175, 3535291, 1765533, 1765557, 1872311, 1724615, 2830605, 954477, 3166749, 3732267, 323627, 569375, 2830703, 2404645, 2134257]

/-- entries 6656..7167 of `MILLER_RABIN_BASE64` -/
def mrBase64_13 : List Nat := [
  1626381, 2978171, 954477, 733189, 3166699, 1593441, 3592403, 1257509, 1962195, 1568949, 1028139, 1642549, 1446019, 2453821, 1380591, 77837,
  1257651, 938175, 2339373, 929871, 684171, 4453179, 520305, 3805777, 1773875, 2625819, 1626375, 1429571, 2429391, 2511249, 3363199, 4059315,
  1446235, 2699463, 1159173, 1151115, 1200361, 954451, 2486283, 3437007, 1626225, 217117, 2216103, 1200277, 1503425, 413701, 1716603, 1528031,
  2756661, 2797677, 462867, 1569115, 1052713, 3166485, 1421509, 815283, 1593585, 1552617, 2363643, 3903549, 323657, 1134653, 929805, 4714905,
  1503261, 167943, 446483, 397391, 3633259, 1896837, 1716493, 2756901, 1626119, 340005, 684061, 1626243, 1716465, 741437, 2699533, 2945203,
  167965, 1150981, 536649, 364585, 3436825, 1257585, 462915, 3395595, 1421469, 438285, 2757221, 938151, 2134143, 938003, 2142431, 4059635,
  1282359, 2650155, 1151059, 3617577, 1257603, 1896807, 2428941, 4084659, 3224015, 1151233, 3003009, 2978259, 561249, 1446055, 1765549, 397317,
  1077285, 2978181, 618633, 1839315, 2871859, 5288375, 3854949, 2134495, 1593727, 1028335, 299013, 978951, 1503371, 3362917, 1134759, 3387465,
  643091, 4494333, 2674693, 2338973, 3903955, 1298629, 610333, 978975, 2338877, 1421589, 6066763, 684163, 1896857, 1077285, 4379397, 733273,
  987335, 2240783, 1446225, 1995035, 1298443, 929859, 1028235, 3879369, 5354511, 1675547, 1429653, 864297, 708667, 2699611, 2429449, 1470703,
  807019, 241669, 2453695, 1298569, 4182347, 4723727, 1528037, 2773143, 2773455, 2240573, 1593637, 2486865, 2699751, 4625367, 2650659, 1134621,
  1773801, 1798149, 1282199, 3879019, 790589, 741539, 2462055, 1380465, 1298611, 1814595, 2044253, 569357, 913587, 1814707, 2134227, 3633615,
  1380389, 1151173, 1429781, 807009, 3633505, 1355879, 2216075, 2339199, 2330677, 3960959, 6541883, 2142399, 3494117, 520205, 2699857, 1257581,
  4379571, 3149921, 1503465, 2363741, 1528065, 1994925, 815285, 241669, 979095, 1528079, 1913065, 323645, 954507, 929881, 1380663, 2085003,
  2044337, 4886589, 4919559, 3961533, 3043611, 741413, 1798437, 1200207, 733311, 782395, 536677, 1151205, 708771, 1765603, 4297071, 1355807,
  1110119, 462949, 413749, 3518481, 2797881, 954475, 4837993, 3264891, 2453517, 5067983, 2633799, 1962247, 1773987, 1675415, 3510445, 2584887,
  569451, 3609139, 2511425, 1274013, 1896729, 4059173, 2011593, 1839271, 1798185, 938085, 536583, 2142297, 1200399, 1429551, 3731605, 3166545,
  413701, 2281579, 806943, 1298455, 1724423, 4985803, 1593357, 2486283, 2011567, 3519117, 2084925, 339987, 2707865, 667659, 1257531, 913431,
  1134639, 4379325, 1151245, 4002669, 1446199, 2134129, 2142561, 1912873, 1200397, 2134143, 3879849, 3027141, 3314283, 5657153, 806925, 733287,
  3043339, 929965, 618635, 167949, 741515, 2773131, 3977859, 3043921, 2142401, 3609229, 1200379, 1028137, 1421325, 1568881, 1839411, 1257503,
  176165, 1626215, 864335, 1110285, 249861, 2306277, 2240865, 790531, 2453541, 1675311, 667659, 1052851, 913413, 1282059, 1134723, 3322139,
  1200175, 4132977, 1839487, 2535687, 53251, 3510859, 1642539, 2707955, 3961241, 2707943, 1429851, 782383, 3387991, 438285, 561223, 929955,
  2281515, 3314221, 1593621, 1839111, 536595, 2871915, 1995021, 1159295, 274461, 782407, 241693, 1134771, 2634335, 2142465, 2527285, 1151085,
  2306229, 4150215, 708613, 2011183, 2404855, 954465, 3363255, 1356003, 929931, 1257519, 1077267, 1429535, 2134059, 987225, 1159331, 643151,
  979155, 610393, 2871753, 1896659, 126993, 2134449, 2363453, 1798343, 1445985, 1716297, 806995, 4133651, 1896765, 1429533, 3518507, 536589,
  3117429, 462931, 1593445, 3371751, 684115, 2756805, 2142311, 2011219, 1028109, 1552635, 2134293, 4231299, 3101213, 741515, 1028245, 2240805,
  3436945, 954409, 1052733, 1028179, 3609385, 3264523, 3387949, 1773921, 561231, 979017, 3617589, 2626045, 3027323, 1200405, 1994859, 1380519,
  3101273, 938073, 4304903, 618509, 421931, 1470591, 3854607, 2216033, 413709, 987287, 536659, 1282091, 4477629, 2707955, 2281561, 913601,
  561169, 1675277, 2404395, 806959, 1798575, 1626143, 6418443, 569385, 1962427, 610315, 1872105, 1626323, 1569141, 864449, 1994765, 3224001,
  274493, 1110021, 2216049, 1274007, 864315, 249887, 1642729, 1626363, 2331067, 741381, 979041, 1773669, 3149855, 1962267, 1552397, 4919705,
  2634005, 2363813, 2674855, 3166647, 741389, 3715101, 1994763, 4379123, 1077357, 954457, 569357, 3314325, 741533, 1282275, 323589, 446477,
  3313803, 339985, 1429557, 1724799, 2142359, 806949, 2674691, 167947, 1593625, 1814635, 741459, 2240619, 3616959, 6091821, 3150197, 2085211]

/-- entries 7168..7679 of `MILLER_RABIN_BASE64` -/
def mrBase64_14 : List Nat := [
  3371045, 2511117, 1470601, 3265165, 4862629, 2306355, 4575845, 462931, 1273929, 1839451, 806973, 1429737, 1298665, 299025, 2461923, 954421,
  4231187, 864335, 1716303, 3765021, 2453607, 340039, 4133835, 6435577, 1814565, 1446051, 446477, 2462175, 274437, 2707569, 520221, 1675337,
  3854683, 929811, 1896453, 987141, 1421395, 1298715, 126989, 569385, 2142245, 2011285, 1298469, 2331085, 4543345, 3903549, 569447, 290883,
  1528049, 929931, 3322565, 790617, 1962097, 5280205, 610347, 167973, 987147, 1298701, 1872035, 2134029, 864315, 1675515, 1159199, 323657,
  954517, 3608649, 1257683, 1724835, 1568857, 1896821, 1528085, 2699353, 299067, 3715685, 954475, 782515, 3002831, 807019, 1814541, 5771371,
  1028099, 864309, 438333, 938025, 290829, 1052751, 4518579, 397335, 1151253, 4296835, 3264679, 1888293, 708621, 217105, 421901, 2674995,
  1798317, 1773735, 2011447, 299061, 1110057, 2830767, 1355913, 3002391, 1552403, 151569, 3027107, 1380461, 3076665, 561157, 2011159, 1200139,
  913467, 3592203, 1421325, 1814865, 979057, 1355877, 954595, 1872165, 4083851, 2707977, 1274139, 1446019, 8204445, 1134615, 2363621, 741399,
  733281, 4543431, 2584995, 3396023, 241677, 2281483, 1773627, 2675025, 913521, 815241, 1110125, 3609433, 2330637, 2699455, 323597, 4886709,
  421893, 4346083, 1872303, 3961551, 3223565, 6788201, 1134701, 1593615, 1552641, 2306247, 3150563, 913497, 3387835, 167973, 241701, 2330647,
  1380395, 1773819, 274491, 1274089, 5829267, 4150167, 2134479, 1552395, 2429157, 2142225, 2363453, 2404929, 2084877, 3731835, 520259, 536605,
  929835, 2486859, 2306385, 954415, 954447, 2830937, 2338863, 708675, 1773747, 1896759, 1888609, 2978031, 1052719, 2363853, 2511045, 1593675,
  2871613, 1273893, 569397, 1446171, 610347, 1798281, 1151007, 790691, 364557, 2511389, 6345477, 520203, 782409, 1765725, 1568799, 2486795,
  3043485, 4715307, 1527861, 1814877, 1871973, 3764901, 2773233, 4518535, 2142459, 241711, 1282061, 1380365, 2142627, 1773875, 1552743, 3494195,
  2011555, 2011597, 2084893, 413737, 3076427, 462931, 1257555, 1872269, 6090931, 2634087, 2871783, 3879091, 1503269, 610401, 2626123, 864437,
  2085237, 2978283, 790533, 274473, 1273965, 4059375, 1134605, 2797797, 2011195, 1552575, 3117099, 2773095, 807043, 2511335, 1200321, 4452525,
  2527633, 1282305, 1257483, 733197, 1773927, 2429001, 1052829, 3043747, 2216193, 69645, 864455, 2527321, 1839501, 2871477, 2215955, 2281959,
  1355987, 2830409, 3027293, 1298683, 1446081, 2904333, 2330917, 6788273, 2363751, 1028149, 741413, 2486625, 1298665, 2773059, 1724813, 1552733,
  2535701, 3076559, 684099, 807093, 3609385, 4477169, 643077, 561223, 2429157, 2625945, 274479, 4182297, 1151215, 4149687, 618635, 2142375,
  2830913, 1200361, 2216253, 2281905, 2462243, 3510303, 1716453, 2674795, 938147, 1159173, 2306437, 2585123, 1994891, 2011443, 2650353, 5042355,
  1028193, 1159341, 1274097, 1896521, 2044035, 2904485, 1274037, 806955, 4297135, 536679, 397379, 192517, 3117093, 815157, 1994855, 1527921,
  4223859, 4026619, 2871715, 1134861, 1134653, 684121, 561181, 1642537, 2486865, 4714647, 1962073, 2240843, 2281911, 176169, 2453901, 1421535,
  2330991, 1888369, 3510945, 2978241, 3388101, 2699865, 1593451, 1593507, 1355805, 2945397, 741395, 7180719, 217095, 2756759, 2535483, 2216393,
  1896453, 2142345, 2240763, 10686477, 3166545, 2535701, 815301, 708775, 3224099, 1642827, 979167, 2756801, 1101847, 1675515, 2675037, 667755,
  2011203, 1151043, 2216445, 2011249, 249861, 3854349, 864329, 1101847, 5772273, 3043827, 2904551, 2756625, 4305009, 1593681, 815207, 438331,
  1200225, 2134437, 913517, 7417923, 1716571, 1675275, 1995141, 4477757, 3977889, 323607, 938055, 1994879, 446477, 1798281, 1445917, 1421371,
  299013, 2798115, 815165, 2830929, 733335, 1134821, 2404813, 2134455, 3436557, 2060397, 1110069, 1569099, 1872203, 1765567, 864345, 1110257,
  536589, 913421, 249869, 3224291, 3265185, 4305723, 1798421, 2904275, 1913103, 3322443, 339999, 2773371, 3264909, 1765755, 978975, 1814907,
  733267, 1765707, 1626459, 2797581, 1446055, 1675503, 217101, 1380603, 3838325, 1151157, 684091, 2634329, 3961463, 864323, 2281653, 1298437,
  4084589, 3002373, 2240703, 618543, 708669, 1642659, 53259, 2511047, 3396227, 2462069, 815165, 1675443, 1110243, 94227, 3100883, 1798191,
  807063, 241669, 3388053, 2486445, 3805435, 2060767, 782475, 684051, 929905, 413733, 1134785, 938013, 684159, 1888453, 1446151, 3265171,
  118797, 1273939, 1446157, 1913185, 1765567, 1962351, 1134611, 1273923, 4518171, 913515, 413733, 1298613, 536617, 3002549, 2904723, 1896507]

/-- entries 7680..8191 of `MILLER_RABIN_BASE64` -/
def mrBase64_15 : List Nat := [
  4764475, 1798451, 2978211, 1962001, 176169, 1429587, 1675427, 3396275, 1282127, 3166947, 913557, 1282187, 2757221, 4001989, 1552721, 3977563,
  2281891, 2945481, 1872095, 1593357, 1888675, 2142575, 3854989, 1552691, 2240823, 1626479, 1675293, 2134059, 3493899, 708775, 2535429, 1257509,
  1642509, 2707917, 2453583, 1527813, 708715, 4763955, 1134771, 1421479, 987243, 1274007, 1077307, 2216219, 2011413, 3264861, 2830509, 3043375,
  2871301, 2699301, 1110147, 2584845, 1839463, 979047, 1528157, 2240531, 2461775, 2511159, 2330647, 4149805, 1765381, 1716267, 782409, 938055,
  815285, 4149277, 979071, 2625889, 4493583, 1421353, 2756735, 1642645, 1642509, 6418695, 4133745, 1052869, 340035, 241687, 1773845, 1626353,
  1716447, 6026589, 4149441, 3313887, 3166521, 2060439, 561213, 1552547, 2584713, 1159211, 954405, 2240643, 815283, 3519321, 2240789, 6607249,
  1995219, 4452725, 1356015, 815177, 5280555, 782437, 2044035, 2404515, 176145, 913605, 1642509, 561249, 1446045, 462919, 5043173, 1470467,
  4985829, 790701, 520253, 610443, 1839271, 1151143, 2240823, 241701, 1888317, 2339195, 561213, 643185, 3510589, 1962147, 421901, 2486693,
  3002777, 1765605, 2339007, 864359, 2699751, 6345377, 938211, 1839501, 4722791, 1429605, 2584589, 4002189, 2453767, 2338989, 151569, 446505,
  1200211, 1962357, 3076139, 2535833, 462921, 3731557, 1421355, 1151035, 217129, 4469757, 643101, 929835, 1355859, 3592623, 462919, 3633165,
  733255, 3076389, 864447, 618501, 929905, 954481, 1626303, 397335, 987141, 4887105, 340011, 1814629, 1421589, 2281765, 1839205, 3510973,
  2904765, 1274079, 2773305, 1028115, 3043359, 290845, 3076797, 2871427, 684111, 11646417, 3510933, 1896687, 446501, 1134597, 2429109, 1355849,
  618567, 438369, 1052911, 864317, 2756841, 4223373, 1273897, 1716405, 2044221, 2216159, 684183, 339981, 1298445, 3387673, 1503429, 790547,
  1028263, 2240579, 45061, 3371405, 1716265, 782409, 987237, 1077255, 1429655, 1355855, 4305419, 364585, 3150047, 3592239, 569451, 806919,
  954409, 1716423, 2085097, 1200277, 4542603, 2945407, 94221, 1380419, 708687, 782517, 1110179, 1159247, 2142729, 1773885, 864315, 864363,
  520299, 1552445, 3388083, 2461823, 5230989, 1101991, 1962265, 782341, 1568947, 1446001, 569357, 708721, 1896659, 1429509, 2462253, 3224073,
  1257509, 2240931, 1028103, 3363129, 2633747, 1445893, 2535701, 2363813, 733227, 3076553, 2134425, 1298569, 2626059, 1503333, 1724429, 1675521,
  1134821, 2331181, 3617259, 1110117, 954391, 1626141, 2584659, 364615, 1798295, 217107, 53259, 462945, 1355855, 790565, 2060539, 2511435,
  8556993, 192549, 4886989, 4862101, 2404525, 6591657, 1445961, 1421479, 643133, 741435, 987327, 1470627, 520211, 1200267, 1159397, 807091,
  2461935, 1962253, 1773969, 987165, 954439, 2306401, 4599911, 4986019, 536613, 708709, 2535695, 2486333, 4477967, 446525, 1626209, 241687,
  192541, 1159221, 2306061, 2011623, 954435, 1569031, 806979, 2798109, 1200229, 1568905, 536605, 323627, 1896717, 274461, 3117307, 2404731,
  741389, 3371091, 3264735, 4378847, 618603, 249869, 2486661, 979107, 2904321, 741389, 561157, 1773779, 462861, 1798157, 1151203, 151565,
  2043935, 938007, 2798091, 1626183, 1151157, 1724813, 2363723, 2338989, 643173, 5869761, 2461895, 2339225, 2535845, 643115, 807105, 3043717,
  1773695, 2453521, 987287, 569411, 1429703, 299025, 782403, 2215995, 2511089, 1839345, 3314017, 1994795, 462855, 462895, 290827, 1798293,
  438369, 2306479, 1798563, 2428995, 1446115, 815283, 913431, 2945187, 2306229, 2216267, 1380629, 2282013, 1896575, 741389, 1814565, 1380551,
  6345543, 3616773, 176141, 1101975, 667707, 561259, 3002547, 3731943, 2584809, 741543, 1765477, 1773651, 1871919, 1134611, 397331, 4493503,
  4149307, 241677, 3027563, 3264943, 2633909, 1995125, 929803, 2904371, 2978283, 2331033, 397317, 2011173, 954547, 2634035, 1528049, 2085265,
  643155, 2011173, 2978231, 1102005, 815151, 4477295, 4149315, 618543, 1675395, 561219, 782449, 1470735, 1134621, 1151149, 2429179, 1896831,
  1028275, 3765021, 3003021, 1028099, 2330751, 1503513, 1765785, 1814805, 2044181, 2708063, 2339085, 667757, 1102053, 643223, 618533, 3518775,
  2142587, 2281485, 323603, 1150993, 1159395, 1569105, 1872029, 1839367, 45061, 3313669, 1151023, 2486565, 2331103, 1429617, 1503335, 1962417,
  2084895, 4518307, 2904657, 2535681, 1470567, 151557, 3510553, 1298703, 176141, 462931, 643115, 2404701, 4002279, 618543, 4477395, 2306365,
  954477, 2511369, 5657949, 462951, 3494411, 954525, 1503483, 126989, 4223047, 3494481, 2306245, 3265189, 1134671, 815133, 2945027, 3616881]

/-- entries 8192..8703 of `MILLER_RABIN_BASE64` -/
def mrBase64_16 : List Nat := [
  364563, 4600905, 979045, 3002931, 1626243, 1896779, 1200225, 1380593, 741437, 3977803, 1871951, 733215, 4083995, 2142245, 3224285, 1282077,
  2871399, 2454075, 610443, 806923, 3363147, 1380453, 1151005, 1773731, 815271, 6116137, 3027023, 978947, 741479, 1528101, 3633585, 790589,
  2462283, 1470475, 4354509, 1101871, 2428989, 5329095, 2306319, 1200309, 2281779, 1257665, 782509, 610315, 274485, 2650363, 2281653, 2085177,
  3043585, 929973, 340015, 2060637, 397341, 987273, 2011173, 1028209, 1839441, 1568965, 1257561, 643133, 2527719, 1159391, 1994805, 643125,
  4027101, 864353, 1527905, 954505, 667745, 421971, 1257513, 2945445, 667749, 3371387, 1470801, 1151233, 3362821, 364561, 1593361, 2453737,
  3002525, 2584923, 938121, 2306131, 913487, 3396335, 3027137, 987143, 6608329, 413785, 708697, 1913103, 3043401, 5330067, 1568895, 741465,
  4543035, 1814581, 192535, 1282179, 167949, 1839261, 5034805, 1675577, 3076133, 3321945, 2338835, 2240763, 3879195, 28677, 2281723, 118801,
  1716321, 118797, 4838445, 2871727, 3043875, 274479, 3437367, 1994919, 913581, 1642693, 2871349, 1552521, 937997, 151571, 6115899, 3043851,
  2699653, 1159247, 2044127, 1593441, 4452719, 4133831, 1528145, 929959, 2216379, 2945127, 1913145, 5157955, 978975, 2216109, 2707637, 2060461,
  1912929, 1552697, 1642501, 3149961, 8237577, 708631, 2461737, 2527285, 1298541, 3362947, 1896639, 446481, 1282259, 6542415, 1282211, 5411457,
  4378863, 806941, 1101955, 1134705, 1724699, 2625799, 2404771, 364573, 1593357, 1282137, 2330797, 1298725, 3855217, 815171, 4305129, 1470525,
  1282319, 782403, 4379357, 3879271, 2945037, 1839117, 4837609, 536677, 2404591, 1888269, 2625967, 1962441, 1282325, 2011567, 1896821, 2306427,
  2830803, 1110183, 979041, 167941, 1642827, 2510915, 2044371, 1028233, 1159305, 364563, 4378761, 3264529, 2633877, 1593655, 1273909, 2216109,
  938021, 733225, 2699871, 1593481, 4346803, 741539, 3223605, 708747, 1151143, 2486835, 2510901, 1814611, 1871877, 462901, 1503501, 1028329,
  987365, 2363603, 1101973, 1077279, 1134699, 1962063, 978955, 1642735, 2756957, 2945421, 913445, 2511087, 249873, 5952369, 1626195, 1773597,
  1568799, 2085175, 2011489, 1470661, 2535885, 2404593, 1052775, 3363303, 2060635, 2085175, 2339373, 77835, 2453547, 2429059, 299019, 929863,
  2584589, 118807, 1798341, 1798497, 1552425, 954439, 2797917, 2945397, 1912863, 5977371, 3903501, 806995, 249875, 4452419, 438369, 1052779,
  1273873, 94221, 1257555, 1274107, 6631429, 1421535, 1839235, 1765669, 2060647, 1568947, 1552401, 2650423, 1765485, 1503243, 1593471, 1429745,
  290839, 6345933, 3002601, 5312549, 3076127, 421971, 1568827, 151581, 741389, 421961, 3592755, 4493595, 167973, 3100863, 2142251, 1380491,
  2904483, 3043479, 1896519, 1445995, 5231301, 1273923, 3149891, 3592943, 1642603, 5976371, 1470547, 2650393, 3100733, 2429139, 3616899, 2904423,
  1421385, 569361, 290853, 938021, 397373, 3117543, 1569075, 4600905, 1110195, 3313705, 4764507, 3518697, 2756901, 979041, 2904147, 3519197,
  913605, 413713, 4837885, 4305815, 397373, 2011363, 3117373, 1150981, 987183, 3265081, 1134819, 421947, 1274137, 1159235, 536683, 2830559,
  413785, 2404563, 1355999, 2798115, 2625763, 323645, 2331055, 782409, 1527839, 733273, 708759, 1798253, 733213, 274455, 1626129, 6484161,
  2453947, 2363771, 1200159, 1994963, 1257663, 1028277, 3617169, 1052685, 987219, 1765627, 708613, 3076389, 3617631, 421925, 1552437, 3003021,
  1642753, 708679, 2756957, 913559, 3313903, 3150347, 3388215, 954565, 3436735, 782517, 1568947, 1273869, 1298455, 1552743, 1446127, 3838193,
  708655, 3609163, 1962433, 708639, 3264909, 643143, 2650561, 2142261, 1962181, 2461775, 1724495, 2216115, 1814701, 954379, 520221, 929823,
  299013, 1077357, 2216319, 536655, 790587, 1593723, 2011599, 118789, 815115, 323637, 69645, 2625769, 3224243, 2978361, 2429025, 2757131,
  782349, 2044173, 2339057, 5402661, 1151247, 4297017, 2142357, 2527501, 3715929, 2945445, 2216117, 2428957, 3854529, 5034675, 2773183, 323621,
  2060425, 462921, 2535731, 3002937, 3026981, 4493731, 2625999, 3223679, 1626471, 618623, 2453701, 782349, 3322589, 274469, 364581, 1110179,
  643175, 2511435, 1642767, 1798311, 1569031, 2306361, 299021, 5657805, 2773549, 1839171, 5574963, 1798553, 274469, 1716603, 299079, 1421509,
  2240829, 1773635, 1716235, 1446195, 2306187, 1355933, 1151187, 806953, 1298541, 2461749, 1814599, 520259, 2011405, 1814685, 1028155, 1642509,
  1896645, 364555, 1077301, 1912837, 1052709, 2142317, 2011555, 2306187, 1593661, 790617, 1077285, 4599855, 913505, 1110029, 2043963, 1151203]

/-- entries 8704..9215 of `MILLER_RABIN_BASE64` -/
def mrBase64_17 : List Nat := [
  1503431, 2306535, 1896837, 1798245, 1257743, 610387, 1626345, 643091, 462937, 1028287, 1765603, 1355795, 421959, 790709, 3371175, 438301,
  9311877, 1159227, 6025833, 2363585, 3363585, 1675283, 217119, 3510879, 3371319, 3002481, 3510609, 6435249, 5239557, 53253, 151565, 3002871,
  2453733, 2650479, 741393, 618585, 708765, 3395775, 937995, 3166717, 1028113, 3044029, 1888705, 978957, 1527831, 1913233, 536589, 1675571,
  569385, 806917, 4837489, 2241033, 782467, 462861, 1814821, 667797, 2306467, 1871877, 3117093, 4969601, 2584739, 8777967, 610377, 1872099,
  1429547, 2674729, 4059275, 1151047, 4969131, 3592331, 1675415, 1028143, 4796525, 2044257, 1716243, 1028319, 929955, 2429437, 2511455, 1282317,
  4354989, 1257525, 1200339, 5436299, 3043875, 782487, 1298611, 1626131, 2650293, 2216303, 5730309, 397325, 2134153, 1274029, 3494237, 1298631,
  1765743, 741429, 446537, 3043827, 3150557, 1298701, 1568857, 421931, 3961143, 1814541, 340039, 3003009, 3027671, 782395, 1273885, 3101195,
  1568797, 1134729, 4985233, 2142281, 397323, 1888513, 1765417, 4469073, 299021, 1273917, 1962297, 1798563, 151557, 1380399, 1716531, 2216423,
  1429661, 3395691, 1814595, 1593357, 684103, 1995219, 2060689, 1871985, 815147, 1421461, 1298571, 5156869, 4059729, 929839, 929863, 299067,
  2584643, 987363, 741381, 3732253, 5657607, 3076653, 1913095, 446505, 3265119, 1896461, 2675001, 1888527, 126989, 4600541, 1200325, 569397,
  1298613, 741515, 1503245, 2240609, 2707719, 1101885, 2339079, 1446115, 1716355, 1421503, 2338973, 1200195, 2453935, 2904123, 3961433, 1896629,
  1077421, 2134515, 1527935, 3149991, 1872063, 2240739, 2429235, 2830605, 1298445, 929949, 2707959, 733197, 1257653, 2404449, 2453587, 1552403,
  5010219, 2404365, 1298479, 2404689, 45061, 274445, 1552391, 1380357, 2527243, 806991, 782445, 5117085, 1912875, 3715113, 3608749, 3321983,
  782517, 929797, 1380543, 2773305, 3371135, 5854181, 1872155, 2461809, 3805465, 610443, 1110087, 3805831, 2306479, 1445899, 3117555, 536655,
  1724667, 979155, 1134605, 1200169, 979143, 1872293, 3961229, 954429, 979083, 2634369, 1675443, 1568899, 2060291, 2699767, 1528175, 741381,
  1470663, 3764715, 2707739, 741515, 2044187, 3166561, 2674911, 4083983, 2330755, 4379645, 1355795, 1282259, 1962427, 643133, 2830709, 2363841,
  1429535, 1503293, 807039, 618503, 2773039, 4026855, 446565, 3002411, 684051, 1888365, 1593711, 1429733, 1356093, 1724655, 2650339, 2134503,
  5279811, 4223115, 807105, 1528175, 1257519, 1773681, 339997, 1151143, 1257711, 684181, 3150095, 2240901, 1896585, 733273, 1470801, 2429077,
  1028175, 340021, 1962423, 3609219, 1839367, 1527875, 2699347, 3978027, 1355823, 1765639, 938157, 1527905, 2674867, 2904243, 1552547, 929955,
  1421329, 2363709, 2215997, 3879175, 3510543, 192525, 2011315, 2675077, 741387, 1798191, 954441, 4182077, 4722711, 3166491, 1773825, 1888339,
  987315, 561165, 1028293, 1298625, 3117675, 3592839, 3388149, 3076583, 4477235, 241681, 6787715, 1052733, 1134765, 1765465, 561189, 2625925,
  1871925, 2330725, 520223, 3904221, 1642677, 2011585, 1888675, 2216403, 520301, 53259, 2904531, 3117093, 1888263, 815117, 790575, 3395841,
  1421355, 2085093, 241693, 1380615, 2625967, 4223553, 176157, 684073, 1962433, 340015, 2453511, 241705, 1527821, 1716403, 3977427, 2773261,
  1421605, 1298521, 2011267, 684159, 2306221, 1626165, 733227, 5329035, 1446195, 782407, 1421575, 3764951, 4132991, 2363901, 782373, 2044071,
  938111, 4001929, 1421583, 1814685, 2625549, 3608997, 979041, 1568899, 3322257, 2650543, 4968779, 1421451, 1298493, 2142687, 684037, 1962217,
  3076469, 1150989, 1298703, 782367, 2650681, 708771, 1151035, 3494387, 978985, 610307, 643109, 3395823, 4084535, 1274097, 1814557, 2428981,
  815201, 438303, 536595, 1888527, 979107, 1159367, 2527299, 3044005, 7672901, 3043875, 4133457, 249915, 2453877, 1527947, 3264895, 3732175,
  1421475, 1110213, 4763841, 1110243, 217111, 3166519, 2797759, 782475, 3592431, 864429, 339991, 2756919, 1642729, 1839513, 806973, 782439,
  2134389, 2044035, 4920393, 1151043, 1913103, 2585043, 3043501, 3002499, 2707583, 1470621, 1527869, 1913083, 2060467, 2625885, 1642659, 151581,
  3977943, 2216357, 4026717, 1429577, 864369, 2339123, 4862613, 1765555, 3265075, 1871889, 3002651, 4001829, 1896881, 4083819, 929941, 667731,
  290883, 1429677, 3224261, 1257629, 1159215, 1716237, 2429359, 2461755, 1429521, 1200361, 782355, 1052845, 4379343, 3510925, 1569085, 1380603,
  1380635, 1200199, 954565, 3117085, 1716229, 2281993, 364591, 2773191, 3387453, 1896687, 2240703, 1257699, 4797009, 741479, 6272205, 1642719]

/-- entries 9216..9727 of `MILLER_RABIN_BASE64` -/
def mrBase64_18 : List Nat := [
  2634075, 987365, 1503579, 1642509, 249875, 1765465, 1102005, 954469, 2527569, 806991, 2674881, 3855145, 1568773, 1356033, 1552647, 1134653,
  4715323, 438313, 1528115, 2085093, 1773905, 708681, 4133001, 1134701, 2404813, 1151073, 3264559, 2486333, 274449, 2773359, 1888261, 3838565,
  1470553, 1503591, 806955, 2240525, 806935, 3322469, 1282175, 340009, 1642845, 1421359, 3371661, 1913221, 2699811, 1077295, 2043909, 1872321,
  1159397, 6099311, 954475, 1503333, 2363643, 1151133, 1642509, 2756715, 438343, 446469, 913455, 2707895, 5009461, 3043707, 3608773, 1421371,
  1913101, 2011473, 413701, 2043947, 2134167, 929971, 1380453, 2708055, 1798149, 1282091, 1151169, 4469745, 2699557, 3608769, 1102021, 2674691,
  733221, 3535455, 1159181, 938007, 69645, 2429235, 569471, 733245, 708615, 618537, 790571, 438315, 2626057, 3314277, 3264553, 618645,
  741399, 2281665, 1626219, 1470577, 3535539, 1101831, 2363555, 1110113, 413709, 1995023, 1888519, 1642807, 3904347, 5730677, 1298659, 610441,
  1675377, 2461875, 446487, 6090855, 118803, 1765557, 2461713, 938141, 2486639, 1282311, 2978159, 938195, 1151019, 2585175, 1355847, 790677,
  864273, 913619, 1798241, 438351, 1896779, 2584767, 4838017, 4002213, 1102047, 1445929, 1077415, 954379, 5599863, 4232177, 2044187, 7623707,
  4452843, 421931, 2060347, 1626345, 618539, 987309, 2757261, 1298443, 1871909, 2142491, 3043959, 1298605, 1642501, 1995141, 1298435, 1593433,
  2830733, 1159367, 2281711, 708681, 6066723, 3592341, 1552653, 1421371, 3387459, 5009421, 2626045, 413757, 1298451, 1912885, 3715265, 2404839,
  782347, 1994949, 1814641, 929881, 782467, 1429767, 2085367, 1888537, 2216127, 1872273, 1839285, 1503495, 6189943, 1552647, 1716355, 684045,
  1257555, 217101, 2527429, 2650471, 987245, 1052905, 2363825, 1871909, 1446235, 1626495, 1626209, 864269, 2281783, 2404435, 1151115, 3494571,
  561231, 536647, 2626059, 1151059, 3494715, 1200321, 1871931, 954373, 938181, 3518885, 1814541, 1273927, 2830613, 536665, 2084905, 987141,
  1200147, 1773585, 2044277, 1765393, 561169, 3535267, 1028113, 1675457, 1102021, 2330661, 1470613, 1257753, 1421325, 3371109, 2306281, 421941,
  53251, 3879735, 3363123, 1765713, 1773795, 1282179, 1871909, 2306271, 733189, 2085003, 2585015, 2904567, 684105, 1913281, 708705, 1298485,
  2011189, 2306215, 520235, 1200291, 3535305, 4346005, 1913281, 1675571, 2060301, 938181, 1765449, 1724555, 3002399, 1642689, 2281711, 2453761,
  2633985, 815205, 913431, 3166671, 2453701, 1282077, 643125, 3510277, 241675, 1429737, 1552443, 2904725, 5288423, 1716435, 929851, 2510975,
  733189, 3223973, 3904317, 1626125, 299039, 1773761, 397325, 3363387, 929901, 2756925, 1028295, 69645, 3150441, 2535755, 978957, 806985,
  2707697, 3617247, 2978279, 1527959, 1839505, 1642567, 274461, 3616821, 569367, 741473, 5574895, 397371, 2363895, 1134633, 7001685, 2674789,
  397391, 1724547, 249909, 2330733, 2060667, 2871909, 1913293, 4149447, 913415, 4985719, 1626353, 4378655, 3960893, 2773101, 7099275, 176169,
  446477, 733215, 3510513, 4796723, 2634195, 643103, 2675089, 3150063, 2085133, 741435, 708721, 1257579, 3043557, 643119, 2699721, 618549,
  176147, 2511395, 1134635, 4625423, 643101, 3223745, 741395, 3805843, 1470775, 2797917, 1380405, 2797611, 3371067, 2510871, 1134595, 1962291,
  937989, 954397, 4763721, 4452995, 913445, 364581, 1134755, 954391, 1200141, 2240931, 4174465, 118803, 4477569, 1110195, 2756615, 1102063,
  1626285, 462895, 815241, 3002811, 4714719, 2511029, 2699631, 6025523, 1257665, 1552407, 438303, 5657139, 1962015, 127005, 684079, 741485,
  3764283, 2330637, 3437107, 1356003, 1101829, 4182519, 421931, 913559, 1552613, 3854733, 1888339, 2584997, 569441, 1527939, 1151127, 2306305,
  1593627, 929845, 938051, 1962417, 1257569, 3388083, 4379301, 192555, 2511125, 1503335, 274493, 3117495, 2757041, 1151035, 1896491, 4149331,
  446517, 1839151, 1355795, 1568917, 954531, 2084881, 1429761, 2707803, 5010181, 536581, 2797885, 1421391, 1593697, 1675463, 561181, 5829317,
  2535833, 3395715, 2510921, 1896849, 2756849, 2011329, 3321935, 536605, 1872003, 2044131, 790719, 1429715, 1552565, 1200189, 2044085, 1028253,
  3362827, 1716291, 2142311, 4059143, 3101159, 1569099, 7320853, 2240535, 864383, 2306071, 2142399, 1552575, 413757, 3977473, 3518657, 3043707,
  1593651, 1642737, 4149267, 1298485, 643179, 4223167, 1642509, 3150557, 2142431, 1527917, 3043357, 929805, 3264543, 1446055, 864317, 1593427,
  421901, 1355795, 1569115, 1528101, 3592391, 2240531, 1593475, 1569031, 1159173, 1814949, 1765423, 1101991, 217117, 864365, 3961575, 987315]

/-- entries 9728..10239 of `MILLER_RABIN_BASE64` -/
def mrBase64_19 : List Nat := [
  1274013, 2699697, 462951, 1839397, 397373, 741417, 2486705, 3493955, 569427, 1077251, 290829, 2830475, 1765749, 1101921, 2330629, 1724435,
  864393, 520263, 2773593, 3076413, 2674971, 1273917, 733347, 1798511, 1716333, 438283, 2011237, 2142675, 1716277, 3371079, 1151215, 561231,
  446507, 1380395, 1642623, 684163, 1429509, 3322529, 340039, 1282359, 2633765, 1888635, 1503489, 1282079, 3535339, 1716421, 2330733, 3166627,
  1429697, 1257509, 2306199, 3322035, 5894553, 782467, 684075, 421967, 323589, 413749, 2281711, 569361, 929941, 2281921, 733323, 1994903,
  2215967, 1642501, 3076367, 618549, 3510843, 782407, 782409, 1527867, 4543347, 3027563, 4083783, 1150981, 1077361, 1355829, 413757, 1028335,
  1421553, 1962123, 1470511, 1298503, 4223913, 77835, 1839487, 1773609, 3117285, 2511287, 1200267, 241707, 1503237, 618509, 741399, 1429613,
  2633765, 2142687, 954559, 569433, 1871915, 413733, 536685, 864437, 3371499, 1962291, 1962027, 4469419, 2486411, 2945161, 929901, 1872011,
  2462259, 364549, 790631, 2707695, 3764463, 4624595, 815211, 2363643, 1273861, 2363621, 1528037, 1380365, 2216369, 1913095, 1052703, 3961341,
  1446151, 1273897, 1765765, 249873, 4133633, 2281635, 979053, 2945407, 2216075, 2240693, 1028247, 1503315, 1724565, 2331123, 3002765, 1101963,
  1052811, 4722707, 741417, 397383, 2216073, 1380479, 462909, 3765087, 1101987, 1994865, 1896647, 340039, 69645, 1282053, 782347, 1773825,
  3616877, 2797791, 2363583, 1273987, 3764933, 1503465, 3101115, 3371447, 3044055, 1962321, 1028263, 2707719, 1765669, 2044253, 684079, 1642777,
  3634033, 1380603, 1839135, 4624565, 643091, 2486325, 1716265, 1445899, 2134287, 3961419, 536659, 1814685, 3002751, 4084551, 1642737, 1028101,
  1077399, 1150981, 323657, 536593, 446511, 1101931, 1773957, 1724445, 1888449, 1814667, 1503443, 2945127, 1298445, 1257503, 1568773, 1052803,
  1814557, 2904203, 1446115, 1274047, 4796847, 979071, 1159241, 421907, 536685, 2756675, 413785, 807049, 1134695, 3518495, 1962385, 2461959,
  1798161, 2945341, 3223569, 2404355, 2216037, 987233, 1159401, 1077445, 2306569, 364549, 3805189, 2216315, 1716493, 1642893, 2871301, 1888353,
  1134843, 1077411, 1798457, 1503581, 2011443, 3395835, 733227, 1257585, 3166657, 733281, 1527821, 1151175, 618509, 1716555, 3592655, 1028275,
  2240921, 1298455, 1421469, 1961997, 323637, 3609195, 3223919, 1421353, 1159269, 4223685, 618597, 1716597, 610435, 1503411, 938081, 1839451,
  1429521, 2044217, 3519063, 274437, 1470733, 987167, 610413, 4477485, 167973, 2060293, 2240999, 1593471, 1429509, 1151019, 1527897, 2871301,
  2831009, 3535165, 1200319, 2585153, 807091, 2527411, 1380419, 1028139, 2510945, 987263, 1896779, 708745, 790541, 561249, 1675373, 1102087,
  69635, 2134057, 2904725, 2404683, 11180487, 421899, 1445949, 299013, 1626393, 954465, 4346839, 1355819, 1568787, 3732207, 2945191, 241701,
  4133231, 1994925, 1273965, 5894761, 1159185, 790709, 1503369, 2904417, 806973, 1355975, 151575, 2085303, 618593, 1814811, 413701, 1282359,
  1773627, 2633751, 1421325, 1355973, 815117, 1421355, 1298451, 2060301, 2330667, 684061, 3363319, 2699463, 2404929, 1773647, 2650339, 1912849,
  815261, 1995219, 2454007, 1110077, 1773839, 4886725, 5952855, 462861, 2830559, 2830349, 4231775, 954561, 4174635, 1257701, 4231761, 1356087,
  536629, 815127, 20483, 1282149, 2871343, 1134633, 3223751, 790547, 2978469, 569451, 1298661, 1077267, 1159419, 7647237, 2011245, 2527501,
  1077319, 2871309, 3535599, 3043621, 569453, 1642695, 1151019, 1110029, 249893, 2904147, 446523, 1159199, 1380365, 2462115, 1380395, 782359,
  1282317, 1675367, 2216045, 610411, 1642869, 1724649, 643113, 290877, 2535707, 290845, 2281485, 5034097, 954525, 1765743, 3731605, 2011141,
  667757, 1282305, 1896515, 364585, 249879, 1994993, 1994859, 1159191, 1470643, 987329, 536589, 4887679, 2306319, 339991, 1913179, 1101841,
  7811791, 536649, 4624395, 2650729, 413703, 2650479, 4714533, 3765063, 3371441, 2330635, 806925, 3101313, 2363831, 1765587, 782443, 3731595,
  249863, 3961379, 1552665, 5928171, 864435, 3027563, 2044365, 741389, 1421421, 2339247, 1716255, 1765573, 3363603, 1872071, 3592229, 3837965,
  3117193, 1773669, 708735, 2461703, 979081, 4624397, 1151215, 1724435, 790629, 1151089, 1798307, 3633553, 3322047, 2281891, 2675235, 1101837,
  1552395, 2510885, 4624425, 1429821, 5656833, 217135, 1282221, 1052773, 1814809, 1159347, 3100811, 3166231, 1839141, 1962235, 6344811, 5829029,
  618579, 1527849, 241701, 2675167, 2945511, 1503339, 2330721, 5730783, 2339087, 5256135, 807015, 2773665, 1257509, 643119, 3616979, 3395597]

/-- entries 10240..10751 of `MILLER_RABIN_BASE64` -/
def mrBase64_20 : List Nat := [
  520209, 1102035, 1626125, 1528079, 1773735, 1200357, 1200339, 782341, 1355837, 3617565, 2462159, 1962183, 4297087, 4625241, 1528047, 5288873,
  6272225, 815145, 2756747, 2978151, 1962393, 1110189, 1356057, 2085265, 2044323, 274493, 3264525, 2363913, 643085, 2404365, 1839177, 1814557,
  3149829, 2699787, 1593693, 462877, 3387991, 1077489, 1110099, 1257653, 1159299, 1568869, 323595, 1110255, 741549, 3518757, 618525, 536637,
  1134623, 5354245, 6468615, 1798553, 2904573, 5771841, 3002715, 151571, 1101835, 1888435, 807091, 3100895, 6607327, 1888609, 1134597, 1814925,
  217093, 1052803, 1994915, 3166287, 938115, 782443, 1282145, 2830409, 807013, 4838529, 987141, 5009487, 462891, 1642789, 913479, 667797,
  3150267, 2830733, 4026651, 2240783, 2625539, 1421539, 2871379, 2978465, 667707, 3027677, 2454073, 1159257, 741539, 2060325, 2330763, 1380665,
  2134125, 2339057, 4255893, 807075, 569375, 708739, 1028197, 5116973, 2363421, 741381, 6345291, 1716295, 4256387, 2634347, 1101883, 5854217,
  1257573, 2085045, 3510373, 2134447, 790719, 782409, 2945671, 1273869, 1552595, 4968471, 2904195, 3002817, 1503311, 1994889, 2511267, 1077265,
  217105, 7566483, 3265213, 2454051, 2134437, 5256255, 2363405, 1626309, 176165, 1503413, 708669, 1274029, 2085211, 3043437, 1503255, 618579,
  462889, 364615, 790701, 2331057, 4133247, 2044011, 1356083, 2240819, 2674861, 1871875, 1282115, 1724805, 618539, 151557, 3838725, 192525,
  2527525, 1626491, 2773051, 1077327, 4231181, 2945307, 1151233, 2044371, 3510495, 5010399, 1962363, 1101837, 1429547, 2281621, 1150989, 929835,
  929839, 421977, 2945527, 1896765, 2363723, 1282179, 1470801, 2134033, 241701, 2429301, 1675653, 323597, 1724529, 1028295, 2699917, 536685,
  1913241, 323607, 3764975, 2461727, 1429733, 1962195, 4837657, 3879049, 954579, 126987, 1282131, 2453661, 3961205, 1151203, 913505, 1257477,
  2527735, 2240535, 192525, 2633735, 249861, 1421479, 1110279, 1962423, 1257639, 323597, 2625567, 2773323, 1839373, 1355829, 2011503, 3076815,
  413709, 5035053, 1110019, 929923, 610327, 864407, 2428965, 438277, 954541, 3396023, 1503383, 929865, 1552737, 3313671, 397323, 1159265,
  2527513, 987237, 569451, 1962013, 1913253, 3395931, 1429775, 643125, 1724469, 1773839, 929865, 1527957, 249875, 1716303, 1134609, 2142587,
  4796639, 2462163, 806925, 1724769, 1110119, 3002981, 3903819, 2044361, 192525, 5042927, 1593717, 5337131, 1077471, 446483, 1528031, 536595,
  3117807, 1716243, 1200277, 708687, 1421485, 77829, 151583, 2240555, 2486303, 1528115, 299037, 2634065, 1052733, 3395597, 4149949, 1839109,
  979011, 3608949, 3362953, 397373, 1429667, 684169, 1380355, 1716501, 2281933, 790617, 3371681, 5067395, 323627, 1961997, 438303, 2216025,
  3592631, 2011555, 167967, 3510385, 3633259, 610387, 7689925, 1200399, 1028167, 618593, 2536001, 1798355, 643079, 2306061, 249887, 1839315,
  4150219, 2306437, 1675277, 2773015, 1626293, 2675131, 421925, 1470547, 561219, 913475, 4256253, 1593447, 684195, 2650683, 1995035, 2461739,
  421901, 3387765, 954427, 2830359, 1626191, 643185, 1773591, 1298605, 2281993, 1872129, 2240979, 2339379, 3117697, 733195, 1470613, 4797569,
  1028139, 6116071, 1765503, 1912933, 1871933, 1028259, 2134165, 4494381, 290829, 2453535, 3616877, 1445949, 2453755, 2240961, 561259, 1355957,
  4001923, 2216267, 2339319, 1257501, 1110021, 421911, 806925, 1912935, 3633163, 1151245, 2945655, 954457, 806955, 413709, 1298529, 340041,
  1028277, 2699527, 741485, 4453085, 2773579, 3961169, 364557, 299025, 733189, 782499, 1913143, 643199, 3314437, 1077285, 4354407, 1380381,
  2707835, 4886799, 2338821, 438279, 610341, 1052905, 1151115, 667671, 1716481, 4133775, 1626443, 1134825, 1355967, 1355829, 1470745, 733311,
  2044263, 684133, 3166827, 1446117, 2241033, 3609207, 1503389, 5854365, 413743, 1568949, 2404423, 3608713, 2650461, 3264679, 2699821, 2945733,
  667715, 978951, 1872045, 929805, 1593495, 1765645, 2904227, 741381, 1716495, 339981, 397355, 290869, 4182293, 618509, 4002553, 1273879,
  1077399, 667749, 3117487, 2330637, 741527, 2330677, 1568865, 299021, 741405, 2044187, 1888587, 5312553, 1626305, 569447, 2707979, 1724607,
  1527915, 1716561, 1814959, 2634045, 1642579, 2674827, 1429507, 364605, 643091, 2142357, 806943, 3101051, 77837, 913535, 929931, 5869825,
  561205, 913413, 1642843, 2453607, 4518745, 2773513, 6828723, 6090951, 1282245, 274461, 733341, 2945107, 2797609, 4838163, 3715283, 913515,
  815187, 274469, 446553, 2535777, 1028101, 3264789, 1675535, 4255797, 1552541, 413725, 2650393, 1765633, 684171, 3265021, 2486619, 987329]

/-- entries 10752..11263 of `MILLER_RABIN_BASE64` -/
def mrBase64_21 : List Nat := [
  569349, 2044293, 6091693, 643199, 1593613, 2363915, 2527429, 2363781, 2625999, 1470661, 1724433, 2240615, 1159299, 3002681, 1593441, 2830599,
  2338979, 2650381, 2461797, 118787, 2633891, 2240643, 176169, 1814617, 3437313, 118789, 5411409, 913445, 3715911, 2585007, 1962405, 782409,
  2216129, 2585055, 2511089, 2633829, 299011, 364551, 1724555, 1995219, 2330637, 5353981, 1380405, 667653, 807103, 1298529, 2871727, 2404579,
  938055, 790571, 4518117, 3322413, 1200157, 2306481, 1773759, 290839, 2527549, 413709, 1994789, 807019, 1446015, 2363789, 1814533, 1872165,
  1593613, 2142381, 1257651, 5009571, 1593571, 2011149, 1716535, 2756891, 1994783, 2634237, 1077475, 413733, 1962081, 1839417, 2339339, 2216319,
  1773699, 1298437, 1077477, 1888413, 2461719, 782341, 1380593, 290835, 1470487, 2527471, 741447, 1282085, 3977287, 1355987, 2585039, 2011317,
  1962021, 2454081, 4231737, 1814779, 2674699, 684163, 290853, 2216043, 3117613, 1839115, 1888699, 1273915, 1872071, 5853683, 741381, 3879529,
  2945677, 3265119, 1626275, 815211, 1052829, 3117267, 610365, 741389, 2650125, 1429787, 3493935, 249909, 2428995, 339999, 3166885, 2871727,
  2241053, 610365, 2625729, 1273965, 364581, 3362847, 864383, 643185, 7992849, 815151, 3117687, 2240541, 274491, 45061, 6025785, 708667,
  4346509, 2306245, 6362379, 2625853, 1798511, 323651, 667661, 462885, 561205, 1200157, 3224123, 3731605, 3977673, 1028307, 2134437, 2306109,
  2011239, 2330703, 3518531, 1028319, 1429697, 1257711, 1052695, 2044235, 274437, 2429427, 1912845, 176159, 815187, 1151199, 3002787, 2699457,
  1274035, 561163, 2527321, 815127, 4132881, 2240775, 2707535, 1552389, 2871903, 536617, 2142237, 2011147, 3437331, 1773837, 1077337, 1798377,
  2536041, 1642777, 561213, 1134819, 2330977, 913425, 2142491, 1470535, 3494219, 954457, 806953, 1102017, 421901, 2461719, 561165, 1995003,
  3978169, 1159251, 5043393, 2904663, 3608845, 643143, 1134863, 2339057, 4624737, 2043963, 1593453, 1355873, 2584959, 929943, 561157, 1839373,
  2585177, 741555, 913559, 618609, 1282161, 667757, 1716505, 1527957, 2511117, 938141, 1593451, 979051, 1773731, 1028185, 1101895, 782349,
  1282187, 3805195, 2134227, 643221, 684105, 2330797, 954381, 3518565, 1274113, 3027171, 462879, 1839255, 462879, 569475, 3960905, 667787,
  1445961, 2281555, 4133465, 1552455, 2240991, 3223691, 339979, 1298545, 2134435, 2084947, 1839145, 1273893, 4378629, 2134437, 3617459, 536673,
  2281599, 3322127, 1552389, 618519, 2699347, 4797567, 3371727, 708681, 1421461, 438277, 217131, 1470595, 1839115, 913469, 1871951, 536599,
  3043815, 790545, 1896647, 1716285, 3002961, 1642833, 3371279, 1134741, 1642677, 2338965, 2306199, 2674711, 5034625, 2085063, 3313687, 684069,
  733293, 3633843, 3616785, 987203, 2904657, 1110125, 2527275, 610417, 1200277, 1626345, 2773243, 1962211, 806949, 2650551, 2707527, 1593427,
  5574897, 2363669, 1355837, 2404515, 1995201, 364623, 1134681, 3715077, 1593571, 1298505, 126981, 1912999, 5288747, 1200199, 3961251, 1765489,
  806917, 241677, 3076155, 4968629, 3608713, 1134605, 438303, 4887247, 561265, 667655, 1151043, 3838779, 1257711, 1814575, 913413, 1716583,
  913589, 1470481, 2871309, 1200231, 4150135, 954525, 299019, 1159391, 1298625, 2461853, 2281915, 938151, 1101927, 1765557, 3100809, 3879529,
  4223245, 3879685, 1380663, 1724525, 1593661, 2281741, 3535221, 2977805, 397331, 364605, 1675293, 1888495, 1282149, 1159247, 2773005, 5574757,
  2634315, 2085261, 561283, 2871609, 929875, 1470691, 938177, 3322575, 1028329, 5402895, 536617, 5239605, 5435849, 708687, 1552563, 2142279,
  3494561, 708759, 1626261, 1151113, 2871783, 1724529, 561165, 978967, 536643, 5730393, 2699877, 1356015, 1888629, 3518721, 2535773, 1077499,
  4084179, 561171, 733189, 2675331, 2363955, 3764517, 1913145, 978967, 1421379, 1159229, 3633799, 2142617, 1912891, 2060367, 1159227, 2331003,
  2633865, 167949, 3117369, 290819, 6115417, 1134759, 3314307, 1298485, 1421451, 2904341, 1101871, 708771, 151565, 4600355, 2584847, 1569105,
  1429841, 1962337, 2281603, 3903871, 1429761, 1257531, 421961, 733195, 2510957, 1994865, 1872185, 2142345, 421947, 1871979, 1765653, 3715781,
  2216163, 2240999, 3043407, 3166255, 782499, 5313509, 1446115, 2585153, 790535, 1642569, 2134245, 1716363, 1888563, 3903531, 2486583, 2650293,
  1552407, 2134447, 1151217, 4518139, 2044067, 3362869, 2871337, 536589, 1642875, 421895, 1028193, 3117339, 1724505, 2699373, 4863043, 3732025,
  815271, 1814533, 1593637, 806965, 2699571, 1765567, 1282115, 1134615, 2331111, 1159409, 2306361, 3322497, 274485, 4084281, 3043425, 1028101]

/-- entries 11264..11775 of `MILLER_RABIN_BASE64` -/
def mrBase64_22 : List Nat := [
  2486541, 1355805, 3166269, 4149253, 3731461, 3314173, 1134861, 4493953, 290875, 446487, 1568829, 2773479, 1077307, 3592541, 3395967, 1798451,
  4231821, 2060311, 790541, 2011159, 2134369, 413769, 446501, 3854725, 1839183, 815175, 2060685, 1528115, 643091, 1273957, 1642557, 1724763,
  987237, 3313737, 913425, 1798575, 1421553, 1257765, 1273917, 2871669, 1380633, 274449, 1896741, 1052713, 2084943, 3117283, 6140167, 3371381,
  1077397, 561205, 520195, 806965, 913605, 3879793, 2453575, 1675653, 1814677, 618509, 2142641, 2511165, 421985, 1716307, 2338839, 1077261,
  569417, 1839213, 421925, 1282319, 569427, 4600665, 1421569, 2338955, 1626449, 1995021, 2584689, 1028125, 2904663, 684093, 2453761, 1716277,
  938013, 462937, 2011141, 1134821, 2486603, 126989, 2085087, 2462163, 929823, 2650291, 3264621, 1814691, 3961211, 4182777, 1274125, 249909,
  782377, 1503423, 1724595, 446487, 2527503, 290829, 2060779, 1421335, 1528121, 1028209, 5230611, 3076737, 1814767, 1503235, 1200195, 2306481,
  1503503, 1151017, 1872053, 1872153, 413793, 3149903, 1773639, 2085195, 339973, 569481, 3223775, 610311, 1814581, 2404851, 1995185, 1503293,
  1101837, 1626173, 3264711, 2453983, 3371499, 2363541, 5623905, 339987, 1110083, 2404669, 610377, 913413, 3838593, 2060709, 2084877, 290857,
  2978223, 2675329, 913599, 1134603, 2134153, 2142275, 979045, 3879489, 1913029, 2511249, 446507, 2461935, 684061, 987239, 4575671, 1839117,
  1814569, 2142221, 536643, 1765383, 4305615, 2675197, 569453, 3534861, 2535653, 274485, 2773051, 1052863, 3396087, 2535687, 3854341, 1446079,
  3265263, 323645, 3043585, 5772211, 1355955, 1110035, 1593411, 929949, 913497, 3223679, 3731509, 5116503, 2216367, 2044251, 667737, 3396293,
  5230635, 1527851, 2625807, 2306131, 1028233, 1798157, 1110057, 4477629, 2830799, 7278743, 2626099, 2281525, 1675491, 1626149, 3805257, 1446111,
  2904347, 2429325, 3117643, 94227, 126987, 274445, 1421593, 1626185, 1724495, 2339363, 2527501, 708747, 954471, 2699283, 2306137, 2134257,
  2535587, 1200397, 3322643, 3396005, 1527981, 1839303, 2699521, 643175, 2707947, 1675283, 1839231, 2331013, 610393, 3322365, 2453913, 815231,
  118801, 733195, 790533, 2142477, 1503579, 741503, 4002151, 954411, 397325, 1569031, 1421553, 864429, 77837, 2797809, 2511327, 1568875,
  2330991, 1503303, 2699317, 413709, 741389, 954441, 2330991, 3363625, 3879663, 323597, 2429041, 1675311, 1298539, 1110129, 1912911, 4346833,
  929931, 397359, 864275, 1421353, 2404459, 1257561, 954385, 1724597, 1356033, 3314337, 421977, 2338835, 3616925, 1724667, 864405, 2338923,
  1716229, 3166287, 1675623, 2510851, 1298713, 2216319, 643185, 1421385, 4714863, 3149987, 3388125, 4150021, 2084931, 2675281, 1765795, 1626479,
  3117349, 192531, 2142221, 2306205, 192553, 1798343, 4600047, 864309, 3396371, 1380369, 167949, 1995033, 5034693, 3961445, 3436633, 1872153,
  1888567, 1626285, 3535077, 1626383, 1872045, 1446079, 2797621, 3494115, 2044031, 1527867, 2339169, 7468767, 1528049, 1298745, 1134693, 4305549,
  1626405, 3076277, 806917, 2216289, 4379615, 4223425, 1896461, 274463, 3223779, 1257551, 733197, 2535695, 1273957, 938195, 1773669, 1110173,
  4493769, 1101867, 1273861, 3395895, 1994901, 2338869, 1470771, 2625993, 2085171, 733263, 3371781, 733341, 2215947, 340047, 708775, 1446201,
  1102003, 1101955, 167965, 1872023, 1773941, 5624191, 4837395, 1994883, 3076295, 4026717, 1052689, 618605, 2511161, 3510469, 815163, 520229,
  938007, 2011417, 536613, 340011, 2977875, 4379201, 2945443, 4543155, 1380489, 2486375, 3002371, 323589, 929811, 1110147, 2830339, 864309,
  2904503, 299079, 2011393, 1724687, 2404603, 1159305, 1765465, 2773563, 3117403, 3314151, 3027401, 4354721, 1151175, 1568781, 1028139, 1028335,
  1028223, 3166269, 1110057, 2585153, 2306161, 217125, 913575, 2797599, 1274163, 3027051, 1528089, 2306175, 2281509, 290859, 1200131, 438345,
  53253, 20483, 2134447, 3617289, 1839331, 2044053, 1200321, 69637, 2453947, 2363649, 1421593, 954415, 1568809, 1159295, 1356093, 1273953,
  1716517, 438351, 2240975, 2281743, 1765669, 4231437, 421929, 1429697, 806985, 290853, 2584869, 462909, 6066181, 2134273, 1716403, 2085265,
  815271, 1298461, 3322365, 929971, 987219, 1798373, 2404465, 1872023, 2830373, 2240555, 1593367, 2363741, 1429641, 987179, 4715115, 6787551,
  2510951, 3437227, 2871495, 3961143, 1593613, 1028269, 3437035, 1503359, 913599, 1593571, 708681, 3437035, 241681, 2331033, 3510303, 864315,
  733243, 1445917, 438339, 397325, 126981, 2044337, 2650183, 1298673, 1429631, 1356083, 1134605, 118789, 1675631, 1913073, 2085015, 1200295]

/-- entries 11776..12287 of `MILLER_RABIN_BASE64` -/
def mrBase64_23 : List Nat := [
  397353, 1429507, 569453, 2429035, 569391, 2535993, 3076515, 561189, 2306131, 3321927, 2281569, 2535533, 1159299, 2650275, 4886989, 1527891,
  1052799, 1896557, 1052689, 1896459, 3166399, 2330907, 2281803, 1642759, 2044041, 1871925, 2011207, 1716381, 1028323, 1421589, 1429641, 733333,
  413709, 3362923, 2330695, 1995131, 3027377, 1151187, 397341, 2462219, 815243, 929931, 2797825, 4354397, 1445929, 1077301, 1839315, 2404365,
  4297563, 1552575, 3371457, 2429391, 1552547, 806915, 1724597, 3117657, 1724733, 1773599, 4133105, 1159179, 1077477, 1470747, 1077445, 1642707,
  954495, 782409, 2626135, 249887, 413727, 5436615, 790665, 2462055, 1077505, 1110053, 299013, 1429605, 954519, 1814809, 536649, 1839235,
  667797, 1593571, 397325, 3027177, 1282281, 176133, 421971, 1134681, 2626027, 3854353, 2330937, 815231, 53259, 1110057, 561165, 1568851,
  1528007, 2060481, 1642719, 3100811, 667685, 446525, 782397, 7697003, 2527671, 2429505, 2773371, 1200277, 684045, 4182033, 536581, 3117123,
  249903, 2675245, 536623, 3362833, 2216213, 5010261, 790709, 3264619, 94221, 323597, 3961293, 3100781, 1593363, 2757249, 684129, 1675353,
  1421449, 536677, 1839375, 1028157, 4296807, 1355949, 2011603, 2085177, 2142291, 2134449, 126989, 4149529, 2674789, 1282095, 2281545, 2797881,
  2535705, 1503341, 782499, 2330991, 987155, 1527819, 2281755, 2830937, 2461785, 4600425, 913475, 3806005, 446571, 1912845, 397395, 536643,
  126981, 561249, 2871955, 979155, 5231709, 618539, 1298443, 3764229, 708745, 1994925, 446543, 1380663, 462927, 913445, 2281869, 1298451,
  192553, 462901, 2453733, 274451, 438283, 241669, 1773989, 1470645, 2871613, 1257513, 1675497, 2240643, 7501377, 4477055, 2142617, 1380501,
  1839205, 1028335, 2945491, 815147, 1871889, 938157, 2011209, 536613, 5575053, 3765047, 1552485, 3371097, 2281669, 1028197, 1716277, 684181,
  1356089, 1552391, 3223649, 2404357, 913607, 6362275, 3166221, 1839453, 2584733, 397359, 1839201, 610335, 1274119, 1724789, 1470621, 1200181,
  1470775, 438319, 2060601, 4231827, 1724445, 1028149, 1298611, 1298623, 1626341, 3027261, 1962177, 2871759, 4255895, 2977829, 1994793, 364557,
  1642549, 2331091, 561195, 323651, 1470553, 782473, 2461779, 1675637, 520299, 3731559, 2674837, 2060461, 2085307, 1593451, 1814967, 1724429,
  1446055, 5575603, 421925, 290877, 1028203, 1134759, 790709, 1765713, 782349, 2527693, 1872099, 1814767, 1110155, 684093, 569411, 4132967,
  2306199, 2830683, 3387541, 241683, 5239823, 2142401, 1716267, 4886799, 790539, 520223, 1626309, 667797, 1134633, 3117367, 1421629, 1257485,
  9310927, 2527833, 3224123, 1470727, 4133517, 1282211, 1282061, 3002391, 987173, 1675343, 1765569, 2240591, 446469, 1446121, 5599605, 3396071,
  4468977, 126981, 1569115, 1110087, 2281891, 3387745, 2904231, 2429265, 2585007, 1151017, 1257599, 1159365, 1814625, 3633349, 7786725, 2134123,
  2134213, 167973, 2085103, 2511045, 2486865, 2428981, 217101, 4256337, 4256685, 1552467, 913581, 7665069, 2773471, 8140011, 2363849, 1626141,
  1724529, 1765479, 4477497, 3265251, 1110273, 1356027, 2306127, 643091, 438361, 618603, 4182609, 1470481, 4493995, 3027545, 462865, 2044271,
  1470747, 3608893, 462885, 1527957, 3903717, 2453893, 806971, 4223677, 3027303, 1642501, 938165, 708661, 1052845, 2339295, 1995023, 520301,
  421977, 1765765, 1568815, 782437, 2699415, 413769, 1110119, 643133, 1298475, 5034951, 1675631, 1773801, 733357, 2011239, 979171, 3117813,
  1102047, 413709, 438375, 397317, 1871913, 1052701, 2363675, 520197, 3493977, 1077379, 1028223, 913469, 2043907, 2674869, 1773845, 618579,
  4133363, 561231, 1470675, 323645, 1355889, 1871913, 1888269, 4256763, 1421341, 126989, 1568839, 2060355, 2527545, 2871529, 1814929, 1101885,
  4600925, 2510927, 643085, 1839171, 2699623, 6090979, 1052835, 978957, 733321, 3076209, 1568865, 1552497, 3395823, 2060437, 1421589, 1642789,
  2363895, 438375, 2281645, 1101987, 987197, 782433, 413769, 1626251, 1765387, 1675431, 1913059, 176147, 1282275, 1765707, 4354539, 1872099,
  4715377, 1298689, 6558033, 1912845, 2453583, 1429767, 2797587, 1380593, 413737, 1052677, 3224043, 1626179, 1052923, 929805, 643125, 3854943,
  462885, 5845255, 1962097, 3437035, 733189, 446481, 1421415, 2363895, 2363871, 2011203, 2756787, 1888623, 2707877, 340027, 28677, 241677,
  536629, 987149, 1274133, 2633891, 643161, 2330629, 3027447, 3903637, 3388119, 3264549, 1470531, 2527345, 2044005, 3223833, 1568995, 2060697,
  1355835, 1151055, 2404663, 954499, 2756651, 2281713, 1626323, 1274149, 3043561, 815261, 913575, 3027095, 3437047, 815145, 421917, 176159]

/-- entries 12288..12799 of `MILLER_RABIN_BASE64` -/
def mrBase64_24 : List Nat := [
  413749, 954469, 3494631, 1134653, 3534961, 741381, 1814797, 1380459, 954549, 1421373, 4305657, 954565, 1077271, 1626171, 69645, 2142339,
  2363901, 520233, 3101391, 3076743, 1274113, 1257765, 4002129, 2428969, 53251, 4886533, 2626057, 790595, 446547, 2650305, 1798251, 2011293,
  446525, 1077487, 1077345, 2511449, 413763, 1552511, 2241011, 3076605, 176133, 741429, 1593481, 864383, 2634189, 340027, 1871889, 5846223,
  1552425, 3395901, 1298599, 806965, 1552635, 2830355, 2486505, 1716495, 2535945, 1298643, 2339013, 3117663, 1814641, 413749, 2699841, 1429685,
  1421541, 913547, 2584827, 192517, 1773951, 2650185, 290847, 5043399, 1257545, 2707461, 6362251, 2281585, 4517893, 1273945, 1765627, 3321899,
  3395981, 1134693, 987209, 2134087, 274451, 815177, 2060581, 397325, 643221, 1503339, 1675353, 1028247, 192515, 864447, 1814937, 1134605,
  4174401, 1355781, 3224115, 929973, 2134405, 8655435, 5730453, 1626375, 4452915, 6557739, 462895, 2633837, 1642807, 1102035, 610363, 1257485,
  2977923, 5255785, 4256391, 1552577, 4256573, 3878925, 1077331, 2216133, 2773329, 1257575, 1626381, 241671, 462945, 1888339, 733201, 1724639,
  708697, 2650555, 1839135, 1839141, 1814595, 8179725, 1151245, 4714803, 1724445, 1675427, 299039, 4493943, 938013, 438303, 2756709, 1593727,
  782367, 741381, 6025757, 3511029, 4984933, 1503239, 3265263, 618501, 1257743, 1028205, 397331, 864329, 1724427, 3903501, 1151019, 94219,
  1503245, 1200369, 5624365, 2699661, 3322167, 708757, 1913169, 2626039, 2535923, 1765659, 3002421, 708613, 1503269, 4060107, 2830905, 2453737,
  2306211, 1052731, 3960851, 3764535, 2142435, 733213, 446565, 2084877, 1716415, 2674731, 2756807, 1552661, 2306487, 1724525, 987225, 2904755,
  610441, 364557, 2527299, 2634009, 2330863, 5657793, 684129, 667707, 3494397, 397373, 1888299, 340011, 1429607, 1421589, 1052701, 1101973,
  1626339, 1380551, 4182267, 2011329, 929871, 1552455, 790581, 1814665, 3313941, 3076637, 569433, 2330971, 3101313, 790695, 2134413, 2429125,
  3437227, 954451, 2675211, 1724583, 1429685, 4862811, 1077255, 1028307, 2674927, 5599693, 3388005, 733251, 2871729, 1282175, 3076757, 1552617,
  2330991, 2773665, 5411855, 1765599, 1151215, 1798301, 151555, 3904009, 2830487, 708631, 1429613, 3838553, 1110027, 979053, 2462283, 2978363,
  1994915, 1568907, 929871, 299075, 1773825, 2240555, 520197, 3731913, 3002559, 2461757, 987263, 1569127, 1552547, 2871445, 299013, 3437235,
  815235, 3388101, 520253, 2044085, 2650363, 643151, 290883, 1888593, 2085127, 790557, 1962165, 1593483, 340047, 4182059, 1872185, 1912863,
  2404483, 1298569, 397325, 1962255, 2216357, 2363397, 790541, 1724429, 1101891, 1421401, 2945133, 3609075, 4862289, 2363559, 1569037, 1569115,
  126987, 1282331, 733197, 2486361, 1765599, 1298665, 987203, 1282055, 1503291, 446567, 2977799, 2142269, 782433, 3027653, 1356059, 1773941,
  1724429, 438351, 1028275, 3436767, 2306247, 1134863, 2011209, 2674725, 4354661, 1773605, 1273957, 249859, 151569, 1298569, 2699365, 3150171,
  643113, 2060371, 1724643, 217135, 1724457, 1429815, 1675661, 733335, 1724615, 3436773, 2060689, 2060437, 2773119, 1872209, 2453817, 733311,
  323589, 1552581, 2650191, 4084703, 3313921, 2281951, 1159391, 1052709, 1912869, 741525, 1716237, 1429733, 1528145, 3518487, 2142641, 4150125,
  913481, 290883, 1298629, 1446061, 3264871, 2404593, 2511215, 1445899, 1724615, 3609183, 1527851, 3027005, 241675, 806917, 1257729, 2871445,
  3149913, 2306115, 618503, 2134435, 1675575, 667665, 2060305, 462901, 3371121, 536583, 1626423, 1159181, 733227, 2011327, 4624955, 1446151,
  561181, 979171, 4345993, 3264651, 618567, 1077285, 2871535, 1159391, 5657397, 1962021, 364555, 790617, 1773717, 1273861, 938141, 1773761,
  2527723, 3764493, 3715245, 167949, 2527615, 241671, 2634095, 1839343, 864413, 2462055, 1503273, 1569099, 2707493, 782397, 610351, 2871895,
  1200265, 1298695, 5854091, 1429703, 987309, 2281939, 299019, 2584847, 610371, 1888653, 1962147, 1552463, 1380459, 5329137, 1724805, 2978025,
  1355987, 413701, 1642603, 3314083, 2142629, 1716417, 815261, 1445919, 2281485, 1470603, 1298505, 3854577, 2142231, 1421595, 1773837, 1888261,
  929805, 2699907, 1724685, 3117229, 2404633, 1150987, 1028227, 2281603, 3150065, 1773597, 815285, 1429715, 2830845, 2486819, 520215, 2060361,
  2060787, 2142489, 438339, 2453641, 3395765, 1798187, 3117789, 1356039, 421925, 667677, 1159171, 618605, 1257491, 1200207, 299021, 1470655,
  1273859, 733291, 790695, 2634341, 1773581, 520253, 1716247, 323655, 2945337, 118797, 815163, 2462153, 1872123, 1274137, 446565, 3117207]

/-- entries 12800..13311 of `MILLER_RABIN_BASE64` -/
def mrBase64_25 : List Nat := [
  1380629, 1028205, 167949, 1298451, 2675187, 1568775, 4305249, 2486565, 4084019, 3764261, 2215949, 954499, 2871859, 1052821, 2240735, 4575975,
  167965, 5411273, 1101913, 3493995, 1257699, 2535797, 5116665, 2584935, 290835, 1273861, 339981, 1101937, 241669, 643223, 2306467, 192553,
  806925, 1274137, 3732309, 2461733, 249897, 708775, 864267, 3265153, 1888705, 2011237, 1273869, 421967, 2584629, 1888419, 4796483, 2945275,
  3534955, 2486813, 5231631, 2339097, 1273969, 815285, 1077415, 1626221, 1298437, 1642773, 1912939, 913509, 446481, 1626141, 4223619, 340005,
  323651, 1077487, 421955, 1593405, 1839107, 2535587, 2584655, 3715841, 3518885, 1888687, 782353, 1716447, 3101415, 2773539, 3510429, 1839283,
  1814835, 2634275, 2240969, 249859, 3027635, 1274085, 1101855, 1151035, 249909, 2453655, 4256555, 1257723, 2060565, 1355835, 2527291, 2453695,
  2699293, 1896905, 1593567, 929829, 1151157, 1528085, 323613, 2011387, 1077277, 610405, 5157811, 3494081, 1642563, 1716583, 2338899, 2216207,
  4861957, 1257653, 462895, 1102017, 241695, 1110197, 3002981, 536617, 7059005, 2134213, 1896639, 2699445, 2134123, 4001919, 2281645, 929983,
  4354641, 2240861, 806931, 1429787, 1200207, 1994963, 1273861, 3076575, 2044043, 4084283, 1675577, 1896807, 1503263, 741435, 684037, 446571,
  2216133, 913413, 5066915, 1527935, 2904335, 3002547, 446561, 1913215, 1470733, 2585189, 1028137, 2773365, 1765387, 3371639, 2084875, 1527897,
  708717, 1052913, 4133321, 2707647, 290821, 2699743, 1445917, 2535863, 2330647, 1429515, 1913163, 790589, 569391, 4026717, 1110069, 3117709,
  4576053, 2453545, 1839213, 741459, 2707773, 2044115, 929859, 3395973, 339987, 1552389, 3223555, 241693, 913479, 1552737, 3363549, 1798205,
  167965, 3322665, 3510523, 3854437, 1052773, 929805, 4476947, 3592631, 4182963, 1421421, 2535615, 2306241, 2772997, 733245, 2462033, 684045,
  1962333, 3149895, 3313977, 569375, 1724835, 1503411, 1896779, 1995185, 94213, 929865, 1151043, 1503395, 929839, 4002103, 1355999, 1282299,
  4624925, 3166435, 2674861, 1995089, 938057, 815187, 3977617, 2453613, 913475, 2904165, 249875, 2453785, 3633363, 1773879, 708621, 2060371,
  1528155, 3223683, 2142489, 462853, 4297743, 1724517, 462855, 4059197, 1052733, 118797, 2339093, 1446169, 1110119, 864369, 6115495, 2338827,
  176159, 3960921, 274493, 1626221, 2945113, 4149999, 1798205, 4231269, 2404699, 1151157, 1282161, 438351, 1282107, 1446145, 3117313, 1429797,
  217091, 2797807, 4133057, 3510523, 1675271, 3879279, 2674845, 1355885, 339979, 2134465, 610335, 5772087, 4231359, 2625883, 1355913, 2044077,
  340047, 1593711, 3264871, 118795, 806941, 2142365, 1626305, 2216037, 2945595, 2011155, 192523, 2486379, 1773831, 2044083, 708615, 2240585,
  2339283, 2281525, 2461845, 176133, 1773767, 610375, 3731889, 1716351, 1200379, 1642653, 2707769, 151583, 1626117, 3838203, 1470487, 2535453,
  2085087, 1962177, 1724543, 684045, 249869, 1642677, 2978361, 3715083, 1528007, 1888605, 2674939, 1429515, 815117, 569405, 1765725, 938091,
  241677, 1429661, 1421317, 3002769, 1814589, 741387, 1593543, 167949, 2044391, 364603, 3076287, 413793, 3494457, 1355969, 2043911, 2699391,
  1159335, 1470655, 1421619, 684183, 790581, 978947, 290869, 782365, 1077385, 2535495, 2142627, 708681, 1429547, 815145, 3264573, 1101837,
  536581, 3609015, 1503269, 3101039, 938091, 4305653, 667667, 2134465, 1421401, 299015, 1527971, 1028323, 1200229, 561157, 1355865, 1716277,
  2797725, 1773999, 1626419, 2404809, 4084085, 4346575, 2429199, 2085175, 4452483, 684085, 1724709, 2462267, 733267, 1298475, 3043467, 3493989,
  2625819, 3076619, 2633907, 978957, 1773957, 323601, 1445995, 782373, 1765647, 3731913, 192541, 2486483, 5436131, 1101981, 741503, 3609007,
  1798517, 1568949, 2527443, 1716507, 2085021, 241717, 938067, 6362521, 1569019, 446537, 3608775, 1257485, 1962003, 618605, 3002847, 1626153,
  1446159, 1642767, 1470781, 4469335, 1568811, 4346029, 2699443, 4518579, 2871727, 684091, 3076505, 979015, 1257765, 274443, 667749, 2281665,
  3396371, 733201, 1380615, 2486873, 1593543, 987263, 446507, 2363675, 3043479, 4084535, 1134825, 4599959, 1429695, 1077319, 815285, 413713,
  1593391, 290829, 2978391, 77835, 4838085, 733213, 2830535, 864369, 1134653, 1773809, 2338955, 3494411, 569417, 3363255, 413769, 741455,
  3511095, 69637, 520251, 806973, 1913163, 5337941, 3223973, 807001, 1675287, 1298589, 3387771, 4223289, 2060397, 1134819, 2134327, 1052701,
  1552613, 1626395, 2429109, 118797, 806995, 3961311, 610377, 1429517, 1912929, 1429775, 1470565, 4722717, 4469103, 3732285, 1134633, 1527965]

/-- entries 13312..13823 of `MILLER_RABIN_BASE64` -/
def mrBase64_26 : List Nat := [
  807013, 69639, 2044035, 1159277, 1446045, 2429259, 1814557, 2830565, 3117363, 1962343, 2756889, 2871675, 3387585, 339979, 2699269, 323631,
  1110155, 618555, 1355781, 274437, 1273987, 1298535, 2871433, 2216439, 1724645, 978987, 2535771, 45061, 53253, 446477, 2486669, 913467,
  413793, 929983, 1552733, 241707, 4083989, 3534997, 6140287, 1773573, 733243, 2626153, 1282079, 1077361, 2510861, 1110023, 421905, 2773119,
  1101841, 987285, 2331171, 1773597, 3387409, 4182333, 3002679, 2871819, 1626225, 2625607, 1716391, 3387915, 2773309, 2330835, 2044095, 1995035,
  4379351, 3166213, 4002519, 1273935, 3878949, 1962183, 2363663, 2453641, 274437, 1380615, 2085367, 3715815, 5157063, 4150195, 1626393, 1527891,
  1503291, 2142627, 4059327, 1773587, 4305723, 1675457, 929929, 2043945, 913515, 2339057, 536649, 2585063, 643139, 2011273, 536581, 3854997,
  3535021, 1470571, 2404603, 2363415, 1445929, 2216015, 3224109, 2674915, 2510949, 954507, 1724693, 2306535, 979027, 2633775, 3027123, 520245,
  684037, 1765567, 1380603, 5829527, 421977, 3166231, 1888587, 2699475, 1421539, 1200229, 954427, 684069, 1552457, 2527845, 2142407, 118807,
  2756747, 733323, 4476933, 1298713, 2945175, 3510275, 2633895, 2085075, 1593655, 4026817, 618563, 413703, 3510379, 3027195, 790637, 2240955,
  2699353, 1871985, 2240679, 5042179, 3002811, 1274083, 979033, 1527837, 2044221, 1839283, 708747, 3322245, 1298683, 2675335, 741395, 3510973,
  733231, 1896477, 1282067, 4379477, 3264751, 3100751, 2650393, 2650459, 1101885, 4059243, 1134789, 1814541, 1380405, 8852967, 864453, 913607,
  1527971, 462871, 274435, 1134597, 413739, 1077379, 1675323, 1282101, 815141, 733213, 1773965, 397325, 77835, 4575237, 1765399, 1642719,
  249893, 561193, 3518883, 3363085, 1028307, 1151233, 1151133, 1274149, 1102047, 241701, 1445947, 446493, 2625955, 1110083, 1896531, 520209,
  3388131, 1527845, 1110087, 1896465, 94213, 733291, 864449, 5846185, 2331057, 3854613, 1527921, 2338905, 3076287, 667775, 954597, 1913061,
  2011207, 217125, 1134821, 1642593, 684049, 1028193, 3436711, 2453509, 1298515, 1724657, 1355915, 1470771, 1110239, 5574883, 1470795, 684115,
  1446115, 6025635, 2773609, 1896867, 2527509, 1912891, 1052745, 1626449, 3518973, 1552715, 3510403, 69645, 2650179, 2453947, 1429547, 1150995,
  610333, 126981, 1282061, 53253, 1568907, 1962121, 1871951, 790659, 1356027, 2633979, 2871349, 4600395, 1257755, 1839385, 274469, 741549,
  520253, 708675, 1421319, 733245, 3321953, 3396407, 462921, 299025, 1962301, 6140271, 3371495, 806949, 1552731, 3027677, 4255805, 4084019,
  1773731, 2453733, 2011225, 610431, 1626119, 1798533, 1446151, 7303919, 1159449, 561219, 1134815, 1159221, 610341, 2527495, 3076101, 1446235,
  1503261, 1052685, 4494289, 1675611, 3002757, 2134083, 3395603, 4182147, 2708019, 1077255, 1380503, 1527921, 3617019, 1716331, 2871487, 3715101,
  4452665, 1159307, 1052845, 1568941, 3535201, 3617399, 1716291, 1593585, 2306161, 3510835, 1151085, 2060485, 421893, 2707787, 3518595, 4624701,
  2011149, 643143, 1552431, 1298435, 1134695, 1429607, 3044019, 2707845, 2330629, 1110197, 7418617, 2060319, 1470691, 1814655, 1101853, 2699907,
  3265203, 929853, 979095, 2338821, 954525, 241669, 2216285, 1503237, 5338097, 6321609, 1282341, 1134825, 618507, 954465, 1626269, 1110129,
  2756759, 2625733, 1028275, 1773581, 3362995, 3076605, 782439, 807001, 2625937, 7467301, 782425, 1257729, 536703, 462891, 3150465, 3149885,
  2060499, 323651, 2462267, 3715635, 1134605, 1912843, 1151047, 2240585, 1200229, 1298583, 323597, 3313845, 2527563, 5869573, 241677, 561165,
  217129, 1888353, 6320981, 4182827, 3519165, 864369, 2675077, 2453517, 807013, 3633199, 2650669, 1765525, 806941, 1151127, 2650575, 2043907,
  2797987, 2461869, 1724421, 1773605, 1773717, 1257743, 2626105, 733243, 364615, 2142375, 1151203, 708691, 3149955, 4001865, 364557, 2011141,
  2707707, 1552617, 520293, 1429547, 1724429, 1077291, 561235, 2650263, 790551, 1896507, 1446085, 2486375, 1994951, 643181, 397401, 1626449,
  2798175, 3961559, 2699443, 708705, 462889, 5116935, 1110033, 6387097, 1962235, 53253, 741515, 2830979, 1765549, 1642833, 1421413, 1913199,
  1503455, 5116637, 340021, 2240595, 1995185, 1200139, 2331021, 913605, 3002625, 3961379, 2462045, 1159395, 1274013, 2675235, 3149913, 569451,
  1110117, 3264753, 397317, 2797597, 2281663, 1273899, 4624931, 2338989, 1470493, 2404909, 2486583, 1798491, 2798029, 741435, 1380405, 2527579,
  1445985, 1355969, 1724429, 1470715, 4150087, 1503333, 807013, 1626153, 913421, 4223073, 864437, 938181, 1994963, 2429179, 1995033, 2429029]

/-- entries 13824..14335 of `MILLER_RABIN_BASE64` -/
def mrBase64_27 : List Nat := [
  4297161, 864317, 684037, 954597, 299019, 364617, 4517893, 118797, 364549, 2134243, 1839285, 520301, 1962447, 5657249, 1773989, 2085145,
  2830347, 3519225, 1528161, 2633751, 176141, 1282051, 1429643, 2634005, 1380381, 929919, 299069, 3076653, 1593357, 1961997, 2977797, 733291,
  1871981, 1569099, 815241, 299045, 2330803, 4346589, 1159407, 1798275, 1282241, 4796499, 987309, 2453517, 610351, 3002937, 1446067, 1765725,
  3313981, 782443, 1028109, 2060667, 1962291, 3002675, 1282325, 2142557, 4378755, 2363529, 339991, 864303, 782433, 708625, 929823, 1200397,
  1028163, 1134719, 4985281, 1994943, 167965, 815277, 413767, 3805197, 1470811, 618575, 3101055, 1282119, 1298713, 1994919, 1274055, 3715271,
  5599665, 1110089, 2134077, 1568979, 1274139, 954385, 684163, 1134825, 1421349, 1724649, 2830907, 118797, 1962451, 1380423, 4305539, 3535237,
  790635, 733297, 3494079, 2330737, 3314307, 938013, 3117795, 3519141, 4174173, 929899, 1773605, 2142213, 684055, 3101031, 1159395, 1503473,
  1421553, 1077315, 1773797, 1503423, 2060395, 1724553, 1077487, 938027, 2060571, 1503395, 151563, 667761, 1888387, 167943, 397355, 741473,
  1552427, 1355823, 6074607, 77837, 1298463, 1356039, 667661, 1110249, 864437, 1134825, 1282245, 3903721, 733297, 5313021, 1716505, 2871799,
  1642725, 790655, 1355817, 954411, 1765473, 4452945, 2707767, 7696511, 2306109, 1503291, 2338853, 1724457, 1814937, 3396045, 446531, 4837843,
  815127, 1446205, 1110143, 1888677, 610375, 1569081, 1470795, 4182413, 151583, 2486451, 3363073, 1028139, 3100965, 2060377, 815277, 2625579,
  2871447, 3224183, 684129, 397349, 610357, 1028259, 1282197, 1159307, 3437197, 1773921, 1470775, 364581, 1675631, 2675149, 2240585, 2282013,
  2142219, 241681, 913557, 1421593, 561199, 1642509, 364549, 4297651, 643145, 3224313, 3076727, 2773483, 2756771, 3436581, 2708075, 1994769,
  3264891, 1077487, 249859, 1200141, 5411769, 741555, 167973, 708705, 4346515, 643085, 1273965, 610363, 1355885, 1110095, 3387901, 364549,
  1593375, 1110123, 610309, 938181, 938177, 1724525, 1257639, 806979, 1724583, 1626491, 3518925, 1871895, 290859, 1872311, 1257663, 3732049,
  913619, 2085045, 290869, 1355885, 954439, 1552613, 1273885, 2142459, 1282145, 413707, 2043917, 2060671, 3166561, 1282151, 364563, 3322205,
  1642693, 3731895, 4026439, 4354689, 3617207, 299045, 421893, 1257723, 954525, 1888513, 2904215, 2404383, 446469, 2527695, 1421421, 1150999,
  979005, 3265263, 2044103, 2462135, 2240871, 618499, 2404531, 1773957, 561175, 2240651, 3764793, 3076197, 249869, 2142255, 1593651, 3027507,
  3396087, 643115, 1077385, 2584605, 569447, 1052911, 438345, 2142437, 929959, 741473, 3617355, 1298739, 4714539, 733257, 2699455, 4355019,
  987287, 643077, 708721, 2461965, 1839147, 2756957, 1110267, 1028263, 1134603, 1052713, 2240643, 2756747, 3592197, 1257515, 610417, 2699269,
  782449, 1102023, 1716495, 1724699, 2675235, 5156935, 2215983, 2404405, 3265213, 1552757, 929859, 3519147, 217131, 561157, 4575371, 684085,
  1159419, 3494711, 1503459, 815277, 1568829, 913467, 413737, 2527543, 1773719, 1429737, 77829, 2216213, 1773707, 4919909, 1593441, 1896821,
  610309, 1552397, 2338889, 3101355, 1888675, 954421, 1872011, 2216037, 2044017, 2511077, 2142287, 2142647, 1773885, 913605, 2773141, 1872255,
  1798481, 167955, 274485, 1151115, 2707629, 979051, 1151005, 3732033, 1913011, 299049, 2634041, 1896641, 618605, 1282287, 1077327, 176147,
  2404435, 790559, 2510877, 2240523, 1642627, 643185, 1503299, 2240531, 1151127, 1568797, 3224013, 2461977, 1273939, 561169, 2584617, 364623,
  1994925, 1282359, 708681, 2675127, 2486319, 4231527, 1200133, 815145, 1716277, 1298589, 6345413, 3314227, 569349, 1896545, 741435, 2306197,
  3519165, 929859, 1675461, 1429733, 815157, 708717, 1134783, 1888285, 2650141, 3903687, 339973, 929875, 2945029, 1134743, 2060467, 2240663,
  3715745, 3043981, 1470747, 2871367, 2404735, 1077261, 4174191, 5035005, 1355907, 1995021, 1110125, 815255, 1994933, 2756891, 364627, 2085351,
  364627, 979137, 2773305, 1101981, 1871975, 569423, 94221, 561163, 249909, 1626351, 741513, 1962451, 1134803, 561235, 1421335, 5927085,
  987263, 929919, 1994951, 1200309, 2707889, 1429541, 1724553, 3314407, 1110087, 1298515, 1503543, 3396201, 2044335, 929851, 536703, 3519275,
  1159229, 3166687, 3731947, 790541, 643179, 5329993, 2756921, 929797, 4837389, 2674887, 1446039, 1503335, 815145, 929929, 1257509, 1798227,
  937997, 1798157, 1724615, 1568821, 2650579, 1429655, 446487, 2453893, 643209, 3609235, 987245, 2085087, 618605, 2084977, 2486373, 3321917]

/-- entries 14336..14847 of `MILLER_RABIN_BASE64` -/
def mrBase64_28 : List Nat := [
  4968795, 1642623, 438277, 782415, 339999, 815135, 1765389, 1814839, 2338877, 4378691, 2404503, 1159251, 5895295, 176169, 1298563, 3616875,
  708765, 77837, 5845075, 1527981, 667731, 2134153, 987315, 1110207, 3510513, 938063, 2331013, 3387853, 1896537, 1527915, 954465, 421931,
  536589, 1429613, 4182105, 1028107, 2134033, 2830725, 2240969, 1257599, 1052731, 1380413, 323655, 4223293, 1765549, 1913125, 1724615, 1839231,
  2085195, 323657, 741473, 806979, 2306185, 815207, 2404549, 2338823, 1503525, 1593697, 5951525, 2585183, 2527305, 2904131, 864395, 217099,
  2281581, 4059155, 2429337, 2978213, 462907, 3534997, 938013, 1839301, 913497, 3166519, 782463, 561165, 667785, 2085045, 1569039, 2830877,
  1913065, 2306107, 1421469, 3494565, 3387619, 1200411, 1872009, 4132953, 643119, 3223973, 938055, 1134623, 2142687, 5944005, 913413, 4354749,
  3592869, 520215, 1724447, 741395, 1052743, 2871363, 708619, 1765555, 126989, 151569, 4084649, 1134609, 1052709, 1716261, 3313765, 2142627,
  2306589, 1568941, 217131, 733197, 1150979, 667779, 5952371, 3264543, 2707887, 1675373, 1077253, 2585097, 1724733, 3519065, 3879333, 782355,
  2904741, 1355957, 1134731, 536647, 53259, 1380603, 1159221, 1896857, 2044197, 807079, 2306145, 1765525, 2142665, 1101981, 241677, 4027009,
  3314205, 536635, 913415, 815213, 536583, 339973, 1896729, 1626135, 5231283, 3960845, 2904177, 1871895, 2330691, 1077447, 2281873, 3837957,
  1110267, 1913029, 2429389, 2830757, 2633817, 1675365, 1110167, 913509, 708765, 2511389, 987333, 3903601, 2756639, 3076109, 2216315, 782463,
  176139, 4133133, 3043695, 2134021, 2797675, 4256777, 618515, 4149517, 3322617, 1200159, 2584893, 815109, 1798415, 1994865, 2306059, 1765399,
  364627, 1151083, 1159407, 1503321, 2134327, 2699415, 1257765, 1675317, 3396285, 1798493, 2363423, 987189, 561165, 1356003, 274437, 1527975,
  2871969, 1429671, 446477, 536623, 3395663, 2134507, 1962415, 3166221, 1642653, 1994765, 4862011, 2945127, 3764313, 3314205, 1912855, 1642663,
  340041, 413749, 1470615, 708721, 4059999, 2363703, 1872293, 3362955, 2142335, 2756717, 643155, 979075, 290869, 1470601, 2904231, 3437001,
  2871979, 1101973, 4838029, 1200157, 1134731, 2527719, 979101, 2633741, 3593015, 4862005, 1429817, 4493349, 2330763, 1626309, 1814701, 2633879,
  6639827, 4600829, 1888275, 421941, 1134699, 610413, 2650389, 1568869, 2461733, 4256165, 446477, 1912905, 4084395, 1503585, 1913221, 1528115,
  3715613, 2527695, 4575585, 2084923, 3100685, 2871463, 1912915, 1839123, 3044029, 3977785, 2084877, 667787, 1814811, 5894317, 462871, 1298451,
  929805, 708613, 1765449, 2085195, 643145, 1675361, 290839, 667761, 3395711, 1626339, 446525, 4493709, 1765429, 3633535, 2044337, 2461709,
  782349, 1052869, 1134611, 3313927, 733237, 667691, 2674851, 2134413, 3519137, 1724477, 1356009, 618509, 1527845, 6590483, 5657133, 2363913,
  397323, 2978249, 1568947, 1527999, 708627, 217107, 815183, 3838301, 1569105, 5256261, 2404609, 1962367, 2134465, 1446099, 2625903, 1110029,
  1355829, 2797669, 1257701, 708771, 733273, 2011215, 1151239, 1871915, 1962301, 643179, 1626215, 4920287, 2338839, 1593483, 978957, 5067615,
  2134213, 1593475, 3043435, 987285, 2708027, 1134815, 2650339, 4084481, 2011419, 2797731, 2216109, 1913061, 1356053, 1913271, 1626125, 684073,
  2945641, 2404459, 6639885, 3166317, 708625, 2707517, 290845, 446505, 807093, 2486715, 4379487, 2085001, 2945697, 438313, 3101021, 1503549,
  2240525, 1429737, 4002291, 2216117, 2511395, 462861, 979111, 1528089, 397355, 2306595, 2453617, 938043, 790571, 3388093, 1569105, 1470475,
  1527815, 2904431, 1765465, 1798481, 1995021, 2830653, 1429761, 1052677, 2330665, 561219, 2584619, 2363541, 1675361, 241701, 2331147, 2134257,
  1052839, 2535737, 7811109, 1298743, 3314257, 1028197, 1150987, 2142651, 2084973, 1995099, 3805893, 864261, 2011143, 2281485, 4001823, 1675535,
  2486781, 323615, 2904083, 192549, 937995, 3854349, 3592245, 4985319, 340047, 913559, 1101865, 118789, 815213, 790685, 2945623, 1028227,
  1913289, 1798147, 2536001, 77829, 2330857, 340005, 323613, 2535987, 3314053, 1503539, 790665, 2363585, 3609037, 1528065, 1814685, 1716487,
  979101, 643133, 684103, 930015, 5034703, 3363007, 2633765, 5354755, 1102035, 2216015, 1282107, 938123, 438303, 1446045, 1888467, 1552653,
  667685, 2429199, 1962315, 1995209, 2428941, 1200133, 3117183, 1593373, 1101897, 4920215, 643131, 3494331, 1642509, 4001805, 1798385, 3519111,
  4026429, 3166407, 2281971, 4797363, 3044001, 2871955, 4002619, 1446111, 1773669, 1380551, 2134213, 1675325, 1380371, 978991, 1773879, 3535141]

/-- entries 14848..15359 of `MILLER_RABIN_BASE64` -/
def mrBase64_29 : List Nat := [
  1470747, 323601, 2486511, 1888489, 864363, 2453857, 1077459, 4378713, 2625573, 2830359, 5009781, 2044263, 1839415, 1675613, 864363, 667661,
  1298715, 815141, 241687, 1552427, 1568881, 126999, 1568829, 2699811, 1503525, 618537, 3518655, 290821, 3387451, 610333, 2871949, 1569079,
  1642515, 2011245, 1298725, 397349, 5600223, 1765435, 2363855, 1814907, 1642575, 3715245, 1814761, 1716613, 3321995, 2306215, 290847, 323595,
  3388153, 1028275, 979155, 618593, 1839151, 274463, 1101975, 2626107, 1593691, 1962015, 3314437, 733335, 815241, 929949, 1773671, 1503411,
  2011375, 569417, 2510859, 299015, 2625687, 1814929, 397329, 1552511, 954567, 20483, 3314143, 3166539, 3715125, 1724769, 2535915, 1273987,
  1200235, 5009505, 151565, 3371157, 2871775, 1159295, 2044031, 53253, 1110125, 1380593, 733341, 446505, 3436825, 3166669, 2756711, 3633835,
  274451, 643103, 1446201, 2773651, 397383, 1896509, 979005, 1159181, 1159305, 618579, 413707, 1257561, 708625, 4625435, 1470661, 520203,
  536643, 3101373, 708759, 1298445, 3387499, 5034847, 2060401, 3117465, 1593637, 5730825, 1421619, 176141, 979141, 2216367, 1962241, 3511095,
  1675665, 126995, 1257579, 1888513, 1134731, 1150989, 929881, 536629, 4797477, 2462079, 2330685, 1446087, 987153, 53255, 708687, 929971,
  954565, 806971, 1552577, 1110033, 1552697, 1298493, 2240793, 2510999, 618633, 1962393, 397355, 1159205, 2281555, 4346497, 3960905, 815121,
  2584713, 684189, 864259, 2511185, 3535201, 2633837, 2453517, 69637, 2306155, 1765587, 1724595, 1052709, 741443, 929803, 1569075, 1626117,
  2084967, 1200339, 2707463, 1814677, 2404923, 2060419, 2535873, 3592715, 2707517, 1527971, 340005, 2699613, 176141, 2330907, 1503455, 954495,
  954519, 1642527, 5338319, 610357, 1773765, 5828801, 2142437, 1200309, 1257555, 2306319, 3363589, 2871649, 1298435, 1282215, 5034031, 2461715,
  1642777, 782347, 5402751, 1552565, 1101885, 2060461, 28677, 1077477, 1134833, 1380531, 1798241, 3838595, 2281699, 1995045, 3838629, 2011467,
  1355843, 1626383, 2216367, 1101841, 1134719, 217099, 2240955, 3101031, 815147, 2585039, 2281515, 979075, 1503509, 1552515, 979111, 1380363,
  561195, 1839297, 2142371, 3879039, 1077295, 1429613, 987225, 1765387, 1470477, 1798211, 6271167, 1896515, 446493, 1298671, 2773065, 2945355,
  1839171, 1110045, 1872293, 1282077, 1200231, 1282187, 462861, 2306437, 1888275, 4182083, 1421569, 684045, 3322497, 1765605, 2625799, 1445947,
  2330857, 3043681, 1642567, 536593, 397349, 1102065, 3223845, 5157433, 2773053, 938165, 1445959, 1159229, 929845, 1470613, 1257669, 1355781,
  4256663, 1298491, 1839381, 4297501, 1110105, 45061, 1724553, 217091, 815267, 1077379, 1298473, 274491, 1593697, 913421, 1872179, 2486721,
  1872185, 1503269, 2429025, 3715473, 4468903, 5952737, 1257525, 1716325, 864285, 864279, 667679, 2535755, 1110195, 4723709, 299061, 667799,
  741407, 2011417, 1159439, 2216285, 1151173, 1552541, 6951051, 1527947, 569475, 987245, 364573, 1200319, 1896645, 2240553, 569391, 1110285,
  741389, 1765485, 1052853, 929845, 274445, 397317, 438285, 979005, 913545, 397343, 806983, 864363, 987369, 2043975, 4059533, 561231,
  2584757, 1593585, 1527897, 2871403, 1528019, 2281485, 2060291, 421901, 1282061, 1593607, 3494355, 2306119, 299013, 1429671, 3166261, 1552665,
  667667, 2871873, 241669, 3044001, 3518747, 1159445, 2904173, 987147, 2084961, 1962363, 1626309, 2977889, 397355, 913581, 815267, 1077385,
  2453905, 2584589, 3002721, 569481, 1888383, 1470507, 3150263, 3371781, 1872291, 3076619, 1298511, 2306589, 339999, 2633867, 2584677, 3265105,
  1527825, 1380465, 2757041, 864315, 3313743, 2339013, 1159395, 413707, 2453641, 2085195, 2461793, 2044175, 5854505, 5239541, 249909, 708621,
  1077327, 69645, 1380355, 2511207, 913427, 2634315, 610393, 2633835, 3149975, 1134849, 3592793, 1380621, 1675377, 2330863, 3027317, 3076727,
  2216399, 741443, 397371, 5771361, 397373, 3732049, 536665, 2625853, 864345, 1593415, 3166407, 1445935, 2707805, 2044145, 1962021, 3117657,
  1298715, 2634111, 1716463, 1568865, 3100839, 1429695, 3166545, 1257533, 954409, 3879469, 53253, 446501, 1569127, 5354383, 1527813, 299025,
  1913293, 413779, 815297, 1913179, 1298631, 3510651, 364627, 1282319, 987335, 3002717, 1962135, 1470561, 1028185, 1052745, 929853, 1503305,
  2404773, 1028307, 3519095, 438343, 3960893, 1995161, 618567, 299069, 3396005, 1839493, 741407, 3518691, 2084887, 217117, 274455, 4027227,
  978957, 536589, 1798233, 3592793, 5338175, 4723817, 1913095, 4518879, 2945581, 618569, 2085171, 3027185, 3002735, 913421, 4468815, 979041]

/-- entries 15360..15871 of `MILLER_RABIN_BASE64` -/
def mrBase64_30 : List Nat := [
  1445925, 1028115, 1028289, 2060647, 618507, 1298715, 299045, 1675283, 2453611, 2306221, 2904485, 5599723, 1134689, 53255, 3371601, 3510373,
  2650423, 864303, 4715593, 667661, 1798541, 561231, 4083995, 1421623, 815253, 3436953, 979081, 741435, 1445907, 3903765, 2306281, 446507,
  1429601, 1110147, 4379511, 2454051, 3100899, 2584995, 2674747, 1724555, 987369, 2011287, 249915, 3224213, 5312571, 4518067, 2707767, 979071,
  438303, 3494181, 667785, 1052863, 2044133, 741381, 3363265, 1527965, 643185, 1716231, 2363741, 462957, 643209, 569387, 3117087, 2511141,
  2011363, 1626461, 1110027, 1724795, 323631, 1642729, 2511395, 569373, 3437005, 520245, 1675269, 2675331, 1110045, 1159449, 2043951, 1110119,
  913431, 741419, 741417, 1151199, 1159197, 1445895, 667805, 987327, 2429469, 1470577, 4231229, 667695, 2626099, 1912959, 2830757, 2363429,
  3510277, 864383, 561213, 2011387, 1470525, 1257753, 1839175, 3436701, 1159305, 536659, 913481, 413727, 3076335, 1380581, 290875, 3043609,
  413763, 1421493, 1568967, 2945601, 249861, 3027183, 929985, 1675541, 1552467, 1298665, 1552715, 4494003, 413715, 1626155, 807075, 364627,
  2338829, 3166671, 929805, 2330961, 2011405, 2535777, 1257653, 6386277, 954579, 1626123, 1470577, 3633289, 2699487, 299055, 4173861, 3494519,
  1798197, 6542193, 3731959, 1552511, 1200235, 413703, 1527813, 3715833, 1896461, 4223737, 1028325, 2216147, 2404839, 2142251, 2625663, 1528041,
  2060671, 1839303, 4149439, 2338875, 3395963, 2216439, 2584727, 2216375, 2330847, 536617, 1077261, 1568829, 1102017, 2945091, 618527, 340009,
  1052899, 5575389, 1626131, 2707613, 1298563, 2486471, 3978163, 684093, 1552701, 3437143, 2085061, 708645, 2486409, 7001125, 3518661, 1200139,
  462859, 3076697, 3322509, 299069, 1724649, 1527975, 4518709, 3715901, 176141, 413709, 4173925, 3166287, 1257683, 2404783, 249915, 446505,
  3002735, 45061, 1888363, 569411, 2650675, 2462045, 1642603, 5329069, 2142357, 1913215, 1569051, 1814757, 462859, 643131, 1257513, 1888437,
  1994985, 1077405, 2535665, 1888533, 217093, 217101, 1470603, 684129, 733267, 938097, 2011467, 462879, 2043907, 1552455, 2650683, 987293,
  1552443, 3903729, 667689, 929835, 708765, 1913265, 1896587, 536649, 815115, 4723179, 4002019, 708687, 807021, 938175, 3731553, 1593723,
  1274007, 217095, 782373, 2060709, 561211, 979141, 3314037, 1503501, 2486339, 2584599, 2338839, 2633807, 3371685, 2404405, 1716481, 1642827,
  1429583, 643101, 3223703, 5337105, 3322149, 1077349, 1110155, 2707461, 2830923, 1888323, 2011503, 6829431, 782341, 610309, 1814565, 1552407,
  2511389, 987219, 2240541, 2338833, 1298439, 3977263, 1765633, 2404753, 1814637, 1446015, 1273897, 2625589, 2674695, 2044347, 937995, 3854365,
  2011315, 1445907, 1528101, 2486849, 806925, 3371171, 1159449, 2330721, 6271727, 3879505, 2904117, 1077309, 53253, 3371579, 1962333, 1151005,
  2363703, 610323, 2625667, 1962295, 1274037, 3264691, 1101837, 1994949, 1872273, 2757009, 1995003, 2330635, 1421365, 954477, 2060619, 708687,
  4346097, 3101159, 2486693, 3027585, 1872189, 2142245, 2215959, 3854779, 5575357, 806973, 2363853, 1872063, 8163885, 1839231, 3166389, 3043395,
  520253, 1724835, 1642779, 708775, 2978181, 167965, 806923, 2527245, 1593405, 5976711, 6026073, 807063, 5280315, 2830907, 299039, 3609139,
  1839355, 151583, 708747, 4059905, 2011143, 2626035, 3854425, 1077265, 4223569, 2330775, 1470801, 2216117, 2281951, 1470595, 561183, 815123,
  1626491, 241705, 2085093, 3535077, 4796709, 2675319, 3395993, 1962427, 438343, 1429733, 806991, 2756991, 864395, 4305317, 2011245, 1528139,
  1200295, 192549, 1839471, 6665451, 1896785, 1913211, 1552613, 2060619, 2404855, 929971, 2535813, 1077259, 2634305, 1569037, 3731565, 806959,
  2708063, 2363463, 3838145, 2674881, 340039, 1200259, 643143, 2462055, 1273929, 520271, 979107, 1913023, 3224001, 929991, 1257735, 2699811,
  2708043, 3264711, 1552697, 1151205, 364581, 2707697, 5288115, 1773957, 1282067, 643101, 462861, 1552437, 4797519, 3879225, 438289, 3002381,
  2404489, 1798293, 1273927, 2633979, 167955, 1151037, 864293, 1446225, 2306079, 2585183, 1839441, 561235, 69645, 2585009, 1593537, 3117505,
  3101181, 806929, 1052731, 2904707, 2510951, 782397, 2977803, 1429797, 4453401, 3879529, 1380533, 1273869, 1568797, 1896837, 684121, 2584977,
  274493, 2757267, 1888467, 1814805, 1200225, 2339373, 1380663, 1052803, 2044145, 1527891, 618533, 2281651, 2339133, 192529, 1724765, 1159445,
  1151083, 937989, 954547, 5034235, 2977929, 2060707, 438319, 2461725, 2404551, 954379, 1773881, 2044167, 2797699, 2044383, 2134125, 2429025]

/-- entries 15872..16383 of `MILLER_RABIN_BASE64` -/
def mrBase64_31 : List Nat := [
  3264823, 2461947, 3264955, 2011443, 1675617, 2060779, 1994759, 2011273, 1110021, 782467, 1052821, 3593013, 3027491, 1994925, 2043963, 3076515,
  438303, 2798029, 954373, 5239893, 987315, 741483, 1355795, 1273897, 3387673, 1716261, 3854433, 2625769, 176165, 1765669, 438309, 667757,
  929895, 1839543, 741465, 438277, 2453557, 2338905, 2134189, 520239, 6190207, 1470517, 1200237, 2978139, 1872165, 2240693, 610335, 1675461,
  3117129, 1642869, 1871883, 978963, 2134209, 1773597, 3633745, 5067521, 806983, 1716261, 979041, 2798139, 1380411, 1110167, 864323, 684075,
  5337531, 3396395, 1110249, 1077429, 2240669, 2634161, 241717, 1503369, 2634177, 53253, 3313669, 2584707, 1470469, 610311, 2429337, 1593601,
  790637, 1282229, 1528035, 1110147, 1896509, 2060511, 3592271, 6812037, 2486343, 1814629, 1912845, 2486529, 708669, 733333, 323589, 1872035,
  3731965, 3436813, 421911, 1429517, 1257701, 2142515, 2830775, 2282019, 2461907, 5287989, 2339109, 1200217, 815163, 708619, 1527813, 3592461,
  979093, 1159437, 1257485, 1159235, 1962087, 1257515, 2084905, 1724435, 1888335, 364623, 782433, 569349, 667755, 2060439, 1716603, 2871613,
  1962057, 53253, 708621, 2830967, 1839115, 3150581, 708621, 667737, 2511371, 2707517, 151563, 938015, 2773173, 1593423, 1765515, 1675637,
  5035047, 1445997, 3322469, 2011225, 1257729, 618525, 2429209, 1101853, 1429835, 77837, 2757255, 1445925, 4182897, 1675647, 1765617, 2404365,
  1675305, 3518471, 1298475, 446525, 2142359, 6606877, 2363793, 1962381, 3076485, 782517, 2486399, 1503431, 2060331, 4149561, 1896641, 1282187,
  937997, 815109, 6812445, 3592949, 2306527, 618549, 2453821, 790659, 1257663, 5010091, 790539, 2428995, 3027545, 3608619, 3715935, 4493943,
  4493815, 733267, 4575243, 4354905, 1528157, 2535587, 2978025, 1134821, 1528001, 4059293, 1568829, 979027, 1028169, 2134021, 2871369, 4575237,
  1159187, 151565, 5600553, 815133, 733207, 1429523, 2404449, 2773453, 2363801, 684133, 3715901, 864261, 2060479, 4182749, 815217, 1470705,
  413715, 274455, 3534919, 1380591, 2306077, 2461923, 446469, 6952201, 290847, 413749, 561255, 3535335, 4173981, 1200285, 3076689, 2461887,
  3223619, 610347, 8082501, 2429329, 77837, 6419093, 2650569, 807103, 1110075, 667685, 2215973, 1200139, 741483, 1798241, 413715, 2904215,
  3854587, 3633913, 2060775, 1994755, 2404785, 520233, 1765599, 1724565, 1503245, 1888413, 2510867, 3961169, 1552641, 708679, 733215, 1503489,
  1421409, 1356059, 4862229, 413701, 151565, 290821, 1380533, 1028289, 3715781, 2527389, 151555, 782353, 782485, 954481, 1503585, 2633747,
  2535771, 3732225, 1429737, 3903541, 1421379, 5239661, 1200411, 520233, 1470507, 2453617, 2453565, 5288999, 3027293, 1888423, 2134447, 151581,
  2453797, 618509, 1773671, 2462159, 2338845, 807019, 2404453, 3076485, 1994771, 299015, 2330905, 3002457, 5035023, 987177, 5034631, 3265131,
  3117733, 3076749, 1470703, 4084521, 2339169, 3371741, 1528157, 1962403, 1503303, 1200307, 3805651, 1716331, 176141, 1896549, 1257651, 2011515,
  2708075, 2453913, 1298437, 782347, 2240849, 2306199, 2011483, 3396335, 1102063, 3362965, 2453653, 4083795, 249899, 954507, 1912903, 1421395,
  2241015, 1151043, 3960921, 6238717, 2338845, 1110063, 3387501, 618501, 520251, 536629, 4452983, 1110039, 684163, 643169, 3395637, 815201,
  1527989, 3633925, 1077345, 2306247, 1593615, 2535653, 1273993, 1527935, 3387465, 1110239, 5402733, 2363429, 684135, 2339097, 1839397, 1134639,
  3633573, 3224199, 4296711, 618557, 4232087, 864329, 3313815, 536581, 1716333, 3043851, 569475, 1429731, 938097, 413785, 3101009, 1642753,
  684181, 3436707, 1200391, 610321, 6140001, 1839385, 3371021, 1470757, 1429547, 1871939, 3100899, 1962165, 1028113, 3396033, 2699871, 2084877,
  807085, 2461709, 1200139, 1134671, 339981, 3224129, 1527811, 2044137, 1421349, 1896455, 2085261, 2945403, 3166275, 4223985, 3879489, 1470691,
  5238921, 2306115, 2338869, 3076443, 1593601, 6665745, 3027563, 2584827, 1568773, 413733, 2511159, 1134783, 987149, 1773665, 1159229, 610377,
  2633817, 667677, 249887, 1569135, 1274127, 94221, 2650285, 1716267, 5255631, 1446067, 2134153, 151581, 364627, 1159395, 3371681, 806917,
  1626501, 1994943, 1052733, 938157, 4714687, 1429835, 3117093, 1159407, 3633595, 2306397, 1159331, 2043909, 2240625, 323613, 2084869, 1380419,
  610311, 1355907, 3592301, 1159359, 2215967, 249867, 1421491, 176159, 462955, 4223895, 618549, 462921, 5313129, 2634081, 1962385, 3854629,
  5574849, 1446165, 2363643, 3043585, 1355805, 3265033, 643075, 987219, 561279, 2330773, 167941, 3838349, 2674881, 176157, 3592305, 610365]

/-- src/tables.rs:1161-2983 `MILLER_RABIN_BASE64` (big-table), split into 32 chunks of 512 entries -/
def mrBase64Chunks : List (List Nat) := [
  mrBase64_0,
  mrBase64_1,
  mrBase64_2,
  mrBase64_3,
  mrBase64_4,
  mrBase64_5,
  mrBase64_6,
  mrBase64_7,
  mrBase64_8,
  mrBase64_9,
  mrBase64_10,
  mrBase64_11,
  mrBase64_12,
  mrBase64_13,
  mrBase64_14,
  mrBase64_15,
  mrBase64_16,
  mrBase64_17,
  mrBase64_18,
  mrBase64_19,
  mrBase64_20,
  mrBase64_21,
  mrBase64_22,
  mrBase64_23,
  mrBase64_24,
  mrBase64_25,
  mrBase64_26,
  mrBase64_27,
  mrBase64_28,
  mrBase64_29,
  mrBase64_30,
  mrBase64_31]

/-- entry `h` of `MILLER_RABIN_BASE64` (`MILLER_RABIN_BASE64[h]`) -/
def mrBase64At (h : Nat) : Nat := (mrBase64Chunks.getD (h / 512) []).getD (h % 512) 0

end NumPrime.Tables
