import Verif.Model.NfaFiles

/-!
# The blocks of nvp.nfa

What the parser has collected at some points of the file. The lists were computed by a program; that they are right is checked by the kernel (Proofs/NvpRead).
-/

namespace Mairix

set_option maxRecDepth 100000

/-- The blocks before `component`. -/
def nvpBlocks : List Block := [⟨393021239685221, [⟨92526, [.cls 6 74546, .cls 4 74545], []⟩, ⟨74545, [.cls 5 24081780], []⟩, ⟨74546, [.cls 7 24081780], []⟩,
  ⟨24081780, [], []⟩], 3, 1⟩, ⟨26476790265512817765, [⟨92526, [.cls 8 92526, .eps 24081780], []⟩, ⟨24081780, [], []⟩], 1, 1⟩,
  ⟨6146846053, [⟨92526, [.cls 2 1573592589617], []⟩,
  ⟨1573592589617, [.eps 24081780, .cls 9 1573592589618, .cls 2 1573592589617, .eps 74546, .eps 74545], []⟩, ⟨74545, [], [bs "COPY_TO_NAME"]⟩,
  ⟨74546, [], [bs "GOT_NAME"]⟩, ⟨1573592589618, [.eps 24081780, .cls 2 1573592589617, .cls 10 1573592589618, .eps 74548, .eps 74547], []⟩,
  ⟨74547, [], [bs "COPY_TO_NAME"]⟩, ⟨74548, [], [bs "GOT_NAME_TRAILING_SPACE"]⟩, ⟨24081780, [], []⟩], 5, 1⟩,
  ⟨1607952266597, [⟨92526, [.cls 0 95793], []⟩, ⟨95793, [.cls 0 95793, .eps 24081780, .eps 74545], []⟩, ⟨74545, [], [bs "COPY_TO_VALUE"]⟩,
  ⟨24081780, [], []⟩], 2, 1⟩, ⟨406228231288165, [⟨92526, [.cls 11 24213040], []⟩,
  ⟨24213040, [.cls 0 24213041, .cls 1 24213041, .eps 432131422996838942709279086], []⟩,
  ⟨432131422996838942709279086, [.cls 4 432131422996838942709261105, .cls 6 432131422996838942709261106], []⟩,
  ⟨432131422996838942709261105, [.cls 5 110625644287190769333575841140], []⟩,
  ⟨432131422996838942709261106, [.cls 7 110625644287190769333575841140], []⟩, ⟨110625644287190769333575841140, [.eps 24213041], []⟩,
  ⟨24213041, [.eps 24213042, .cls 0 24213041, .cls 1 24213041, .eps 432131422996838942726056302, .eps 74545], []⟩, ⟨74545, [], [bs "COPY_TO_VALUE"]⟩,
  ⟨432131422996838942726056302, [.cls 4 432131422996838942726038321, .cls 6 432131422996838942726038322], []⟩,
  ⟨432131422996838942726038321, [.cls 5 110625644287190769337870808436], []⟩,
  ⟨432131422996838942726038322, [.cls 7 110625644287190769337870808436], []⟩, ⟨110625644287190769337870808436, [.eps 24213041], []⟩,
  ⟨24213042, [.cls 12 24081780], []⟩, ⟨24081780, [], []⟩], 2, 3⟩, ⟨391878846018675, [⟨92526, [.cls 14 92526, .cls 13 24081780], []⟩,
  ⟨24081780, [], []⟩], 1, 1⟩, ⟨1569431908210, [⟨92526, [.cls 2 401774568501809, .cls 3 401774568501809], []⟩,
  ⟨401774568501809, [.eps 24081780, .cls 2 401774568501809, .cls 3 401774568501809, .eps 74545], []⟩, ⟨74545, [], [bs "COPY_TO_MINOR"]⟩,
  ⟨24081780, [], []⟩], 2, 1⟩,
  ⟨6758528709930951406949, [⟨92526, [.eps 7452553923358143871062719897430382, .eps 7452553923358143871062719847098734, .eps 29111538763117749496338866661742, .eps 29111538763117749496338799552878, .eps 29111538763117749496338749221230], []⟩,
  ⟨74545, [.eps 6758528709573676525934], []⟩,
  ⟨29111538763117749496338749221230, [.eps 7452553923358143871062719801030004, .cls 8 29111538763117749496338749221230], []⟩,
  ⟨7452553923358143871062719801030004, [.eps 74545], []⟩, ⟨74546, [.eps 29111538763117749496338782775662], []⟩,
  ⟨6758528709573676525934, [.cls 2 113389296002718839010988221745], []⟩,
  ⟨113389296002718839010988221745, [.eps 6758528709573676507953, .eps 6758528709573676507954, .cls 2 113389296002718839010988221745, .cls 9 113389296002718839010988221746, .eps 1730183349650861191034228], []⟩,
  ⟨6758528709573676507953, [], [bs "COPY_TO_NAME"]⟩, ⟨6758528709573676507954, [], [bs "GOT_NAME"]⟩,
  ⟨113389296002718839010988221746, [.eps 6758528709573676507955, .eps 6758528709573676507956, .cls 10 113389296002718839010988221746, .cls 2 113389296002718839010988221745, .eps 1730183349650861191034228], []⟩,
  ⟨6758528709573676507955, [], [bs "COPY_TO_NAME"]⟩, ⟨6758528709573676507956, [], [bs "GOT_NAME_TRAILING_SPACE"]⟩,
  ⟨1730183349650861191034228, [.eps 74546], []⟩, ⟨74547, [.cls 15 1749202373530296611856748], []⟩,
  ⟨29111538763117749496338782775662, [.eps 7452553923358143871062728390964596, .cls 8 29111538763117749496338782775662], []⟩,
  ⟨7452553923358143871062728390964596, [.eps 74547], []⟩, ⟨74548, [.eps 6758528709573726857582], []⟩,
  ⟨29111538763117749496338799552878, [.eps 7452553923358143871062732685931892, .cls 8 29111538763117749496338799552878], []⟩,
  ⟨7452553923358143871062732685931892, [.eps 74548], []⟩, ⟨74549, [.cls 16 74550], []⟩,
  ⟨6758528709573726857582, [.cls 2 113389296002719683435918353713], []⟩,
  ⟨113389296002719683435918353713, [.eps 6758528709573726839601, .eps 6758528709573726839602, .cls 2 113389296002719683435918353713, .cls 9 113389296002719683435918353714, .eps 1730183349650874075936116], []⟩,
  ⟨6758528709573726839601, [], [bs "COPY_TO_NAME"]⟩, ⟨6758528709573726839602, [], [bs "GOT_NAME"]⟩,
  ⟨113389296002719683435918353714, [.eps 6758528709573726839603, .eps 6758528709573726839604, .cls 10 113389296002719683435918353714, .cls 2 113389296002719683435918353713, .eps 1730183349650874075936116], []⟩,
  ⟨6758528709573726839603, [], [bs "COPY_TO_NAME"]⟩, ⟨6758528709573726839604, [], [bs "GOT_NAME_TRAILING_SPACE"]⟩,
  ⟨1730183349650874075936116, [.eps 74549], []⟩, ⟨74550, [.eps 430875347876973957377583470], []⟩, ⟨74551, [.eps 29111538763117749496338849884526], []⟩,
  ⟨430875347876973957377583470, [.cls 13 110304089056505333088661763444, .cls 14 430875347876973957377583470], []⟩,
  ⟨110304089056505333088661763444, [.eps 74551], []⟩, ⟨74552, [.cls 17 114635726750888880852379268453], []⟩,
  ⟨29111538763117749496338849884526, [.eps 7452553923358143871062745570833780, .cls 8 29111538763117749496338849884526], []⟩,
  ⟨7452553923358143871062745570833780, [.eps 74552], []⟩, ⟨74553, [.eps 6758528709573793966446], []⟩,
  ⟨29111538763117749496338866661742, [.eps 7452553923358143871062749865801076, .cls 8 29111538763117749496338866661742], []⟩,
  ⟨7452553923358143871062749865801076, [.eps 74553], []⟩, ⟨19083568, [.cls 18 19083569], []⟩,
  ⟨6758528709573793966446, [.cls 2 113389296002720809335825196337], []⟩,
  ⟨113389296002720809335825196337, [.eps 6758528709573793948465, .eps 6758528709573793948466, .cls 2 113389296002720809335825196337, .cls 9 113389296002720809335825196338, .eps 1730183349650891255805300], []⟩,
  ⟨6758528709573793948465, [], [bs "COPY_TO_NAME"]⟩, ⟨6758528709573793948466, [], [bs "GOT_NAME"]⟩,
  ⟨113389296002720809335825196338, [.eps 6758528709573793948467, .eps 6758528709573793948468, .cls 10 113389296002720809335825196338, .cls 2 113389296002720809335825196337, .eps 1730183349650891255805300], []⟩,
  ⟨6758528709573793948467, [], [bs "COPY_TO_NAME"]⟩, ⟨6758528709573793948468, [], [bs "GOT_NAME_TRAILING_SPACE"]⟩,
  ⟨1730183349650891255805300, [.eps 19083568], []⟩, ⟨19083569, [.eps 7452553923358143871062719830321518], []⟩,
  ⟨19083570, [.cls 19 447795807620651938380735860], []⟩,
  ⟨7452553923358143871062719830321518, [.eps 1907853804379684830992056276562703732, .cls 8 7452553923358143871062719830321518], []⟩,
  ⟨1907853804379684830992056276562703732, [.eps 19083570], []⟩, ⟨19083571, [.eps 1730183349650856958912878], []⟩,
  ⟨7452553923358143871062719847098734, [.eps 1907853804379684830992056280857671028, .cls 8 7452553923358143871062719847098734], []⟩,
  ⟨1907853804379684830992056280857671028, [.eps 19083571], []⟩, ⟨19083572, [.cls 20 19083573], []⟩,
  ⟨1730183349650856958912878, [.cls 2 29027659776695951784805743289649], []⟩,
  ⟨29027659776695951784805743289649, [.eps 1730183349650856958894897, .eps 1730183349650856958894898, .cls 2 29027659776695951784805743289649, .cls 9 29027659776695951784805743289650, .eps 442926937510619381482091892], []⟩,
  ⟨1730183349650856958894897, [], [bs "COPY_TO_NAME"]⟩, ⟨1730183349650856958894898, [], [bs "GOT_NAME"]⟩,
  ⟨29027659776695951784805743289650, [.eps 1730183349650856958894899, .eps 1730183349650856958894900, .cls 10 29027659776695951784805743289650, .cls 2 29027659776695951784805743289649, .eps 442926937510619381482091892], []⟩,
  ⟨1730183349650856958894899, [], [bs "COPY_TO_NAME"]⟩, ⟨1730183349650856958894900, [], [bs "GOT_NAME_TRAILING_SPACE"]⟩,
  ⟨442926937510619381482091892, [.eps 19083572], []⟩, ⟨19083573, [.cls 21 19083574], []⟩, ⟨19083574, [.cls 22 19083575], []⟩,
  ⟨19083575, [.eps 7452553923358143871062719880653166], []⟩, ⟨19083576, [.cls 23 447795807620651938380735860], []⟩,
  ⟨7452553923358143871062719880653166, [.eps 1907853804379684830992056289447605620, .cls 8 7452553923358143871062719880653166], []⟩,
  ⟨1907853804379684830992056289447605620, [.eps 19083576], []⟩, ⟨19083577, [.eps 1730183349650857009244526], []⟩,
  ⟨7452553923358143871062719897430382, [.eps 1907853804379684830992056293742572916, .cls 8 7452553923358143871062719897430382], []⟩,
  ⟨1907853804379684830992056293742572916, [.eps 19083577], []⟩, ⟨19083824, [.cls 24 19083825], []⟩,
  ⟨1730183349650857009244526, [.cls 2 29027659776695952629230673421617], []⟩,
  ⟨29027659776695952629230673421617, [.eps 1730183349650857009226545, .eps 1730183349650857009226546, .cls 2 29027659776695952629230673421617, .cls 9 29027659776695952629230673421618, .eps 442926937510619394366993780], []⟩,
  ⟨1730183349650857009226545, [], [bs "COPY_TO_NAME"]⟩, ⟨1730183349650857009226546, [], [bs "GOT_NAME"]⟩,
  ⟨29027659776695952629230673421618, [.eps 1730183349650857009226547, .eps 1730183349650857009226548, .cls 10 29027659776695952629230673421618, .cls 2 29027659776695952629230673421617, .eps 442926937510619394366993780], []⟩,
  ⟨1730183349650857009226547, [], [bs "COPY_TO_NAME"]⟩, ⟨1730183349650857009226548, [], [bs "GOT_NAME_TRAILING_SPACE"]⟩,
  ⟨442926937510619394366993780, [.eps 19083824], []⟩, ⟨19083825, [.cls 25 19083826], []⟩, ⟨19083826, [.cls 26 19083827], []⟩,
  ⟨19083827, [.eps 7452553923358143871062719930984814], []⟩, ⟨19083828, [.cls 27 2114655913077310365607951141775001935160271598949], []⟩,
  ⟨7452553923358143871062719930984814, [.eps 1907853804379684830992056302332507508, .cls 8 7452553923358143871062719930984814], []⟩,
  ⟨1907853804379684830992056302332507508, [.eps 19083828], []⟩,
  ⟨1749202373530296611856748, [.eps 7452553923358143871062724175620462, .eps 7452553923358143871062724125288814, .eps 7452553923358143871062719947762030], []⟩,
  ⟨19083829, [.eps 114343081941047261087665121646], []⟩,
  ⟨7452553923358143871062719947762030, [.eps 1907853804379684830992056306627474804, .cls 8 7452553923358143871062719947762030], []⟩,
  ⟨1907853804379684830992056306627474804, [.eps 19083829], []⟩, ⟨19083830, [.eps 7452553923358143871062719981316462], []⟩,
  ⟨114343081941047261087665121646, [.cls 11 29271828976908098838442271667760], []⟩,
  ⟨29271828976908098838442271667760, [.eps 539969937706418999667573913133882912317671172106606, .cls 1 29271828976908098838442271667761, .cls 0 29271828976908098838442271667761], []⟩,
  ⟨539969937706418999667573913133882912317671172106606, [.cls 6 539969937706418999667573913133882912317671172088626, .cls 4 539969937706418999667573913133882912317671172088625], []⟩,
  ⟨539969937706418999667573913133882912317671172088625, [.cls 5 138232304052843263914898921762274025553323820059686260], []⟩,
  ⟨539969937706418999667573913133882912317671172088626, [.cls 7 138232304052843263914898921762274025553323820059686260], []⟩,
  ⟨138232304052843263914898921762274025553323820059686260, [.eps 29271828976908098838442271667761], []⟩,
  ⟨29271828976908098838442271667761, [.eps 114343081941047261087665103665, .eps 539969937706418999667573913133882912317671188883822, .cls 1 29271828976908098838442271667761, .cls 0 29271828976908098838442271667761, .eps 29271828976908098838442271667762], []⟩,
  ⟨114343081941047261087665103665, [], [bs "COPY_TO_VALUE"]⟩,
  ⟨539969937706418999667573913133882912317671188883822, [.cls 6 539969937706418999667573913133882912317671188865842, .cls 4 539969937706418999667573913133882912317671188865841], []⟩,
  ⟨539969937706418999667573913133882912317671188865841, [.cls 5 138232304052843263914898921762274025553323824354653556], []⟩,
  ⟨539969937706418999667573913133882912317671188865842, [.cls 7 138232304052843263914898921762274025553323824354653556], []⟩,
  ⟨138232304052843263914898921762274025553323824354653556, [.eps 29271828976908098838442271667761], []⟩,
  ⟨29271828976908098838442271667762, [.cls 12 29271828976908098838442271536500], []⟩, ⟨29271828976908098838442271536500, [.eps 19083830], []⟩,
  ⟨7452553923358143871062719981316462, [.eps 1907853804379684830992056315217409396, .cls 8 7452553923358143871062719981316462], []⟩,
  ⟨1907853804379684830992056315217409396, [.eps 1735275153812239938314604], []⟩, ⟨19083831, [.eps 452598326792275801123219822], []⟩,
  ⟨7452553923358143871062724125288814, [.eps 1907853804379684830992057376074331508, .cls 8 7452553923358143871062724125288814], []⟩,
  ⟨1907853804379684830992057376074331508, [.eps 19083831], []⟩, ⟨19083832, [.eps 7452553923358143871062724158843246], []⟩,
  ⟨452598326792275801123219822, [.cls 0 452598326792275801123223089], []⟩,
  ⟨452598326792275801123223089, [.eps 452598326792275801123201841, .eps 115865171658822605087544669556, .cls 0 452598326792275801123223089], []⟩,
  ⟨452598326792275801123201841, [], [bs "COPY_TO_VALUE"]⟩, ⟨115865171658822605087544669556, [.eps 19083832], []⟩,
  ⟨7452553923358143871062724158843246, [.eps 1907853804379684830992057384664266100, .cls 8 7452553923358143871062724158843246], []⟩,
  ⟨1907853804379684830992057384664266100, [.eps 1735275153812239938314604], []⟩, ⟨19083833, [.eps 19084080], []⟩,
  ⟨7452553923358143871062724175620462, [.eps 1907853804379684830992057388959233396, .cls 8 7452553923358143871062724175620462], []⟩,
  ⟨1907853804379684830992057388959233396, [.eps 19083833], []⟩, ⟨19084080, [.token 0 1735275153812239938314604], []⟩,
  ⟨114635726750888880852379268453, [.eps 7452553923358143871062724242729326, .eps 7452553923358143871062724192397678], []⟩,
  ⟨19084081, [.eps 114343081941047261091909757294], []⟩,
  ⟨7452553923358143871062724192397678, [.eps 1907853804379684830992057393254200692, .cls 8 7452553923358143871062724192397678], []⟩,
  ⟨1907853804379684830992057393254200692, [.eps 19084081], []⟩, ⟨19084082, [.eps 7452553923358143871062724225952110], []⟩,
  ⟨114343081941047261091909757294, [.cls 11 29271828976908098839528898393648], []⟩,
  ⟨29271828976908098839528898393648, [.eps 539969937706418999687618638249991789728837791541614, .cls 1 29271828976908098839528898393649, .cls 0 29271828976908098839528898393649], []⟩,
  ⟨539969937706418999687618638249991789728837791541614, [.cls 6 539969937706418999687618638249991789728837791523634, .cls 4 539969937706418999687618638249991789728837791523633], []⟩,
  ⟨539969937706418999687618638249991789728837791523633, [.cls 5 138232304052843263920030371391997898170582474635048308], []⟩,
  ⟨539969937706418999687618638249991789728837791523634, [.cls 7 138232304052843263920030371391997898170582474635048308], []⟩,
  ⟨138232304052843263920030371391997898170582474635048308, [.eps 29271828976908098839528898393649], []⟩,
  ⟨29271828976908098839528898393649, [.eps 114343081941047261091909739313, .eps 539969937706418999687618638249991789728837808318830, .cls 1 29271828976908098839528898393649, .cls 0 29271828976908098839528898393649, .eps 29271828976908098839528898393650], []⟩,
  ⟨114343081941047261091909739313, [], [bs "COPY_TO_VALUE"]⟩,
  ⟨539969937706418999687618638249991789728837808318830, [.cls 6 539969937706418999687618638249991789728837808300850, .cls 4 539969937706418999687618638249991789728837808300849], []⟩,
  ⟨539969937706418999687618638249991789728837808300849, [.cls 5 138232304052843263920030371391997898170582478930015604], []⟩,
  ⟨539969937706418999687618638249991789728837808300850, [.cls 7 138232304052843263920030371391997898170582478930015604], []⟩,
  ⟨138232304052843263920030371391997898170582478930015604, [.eps 29271828976908098839528898393649], []⟩,
  ⟨29271828976908098839528898393650, [.cls 12 29271828976908098839528898262388], []⟩, ⟨29271828976908098839528898262388, [.eps 19084082], []⟩,
  ⟨7452553923358143871062724225952110, [.eps 1907853804379684830992057401844135284, .cls 8 7452553923358143871062724225952110], []⟩,
  ⟨1907853804379684830992057401844135284, [.eps 113722992479446318695121319269], []⟩, ⟨19084083, [.eps 452598326792275801240660334], []⟩,
  ⟨7452553923358143871062724242729326, [.eps 1907853804379684830992057406139102580, .cls 8 7452553923358143871062724242729326], []⟩,
  ⟨1907853804379684830992057406139102580, [.eps 19084083], []⟩, ⟨19084084, [.eps 7452553923358143871062724276283758], []⟩,
  ⟨452598326792275801240660334, [.cls 0 452598326792275801240663601], []⟩,
  ⟨452598326792275801240663601, [.eps 452598326792275801240642353, .eps 115865171658822605117609440628, .cls 0 452598326792275801240663601], []⟩,
  ⟨452598326792275801240642353, [], [bs "COPY_TO_VALUE"]⟩, ⟨115865171658822605117609440628, [.eps 19084084], []⟩,
  ⟨7452553923358143871062724276283758, [.eps 1907853804379684830992057414729037172, .cls 8 7452553923358143871062724276283758], []⟩,
  ⟨1907853804379684830992057414729037172, [.eps 113722992479446318695121319269], []⟩,
  ⟨447795807620651938380735860, [.eps 7452553923358143871062728470587758, .eps 7452553923358143871062728420256110], []⟩,
  ⟨19084085, [.cls 28 19084086], []⟩,
  ⟨7452553923358143871062728420256110, [.eps 1907853804379684830992058475585959284, .cls 8 7452553923358143871062728420256110], []⟩,
  ⟨1907853804379684830992058475585959284, [.eps 19084085], []⟩, ⟨19084086, [.cls 29 19084087], []⟩, ⟨19084087, [.eps 452598326792275805418187118], []⟩,
  ⟨19084088, [.eps 7452553923358143871062728453810542], []⟩, ⟨452598326792275805418187118, [.cls 0 452598326792275805418190385], []⟩,
  ⟨452598326792275805418190385, [.eps 452598326792275805418169137, .eps 115865171658822606187056297332, .cls 0 452598326792275805418190385], []⟩,
  ⟨452598326792275805418169137, [], [bs "COPY_TO_VALUE"]⟩, ⟨115865171658822606187056297332, [.eps 19084088], []⟩,
  ⟨7452553923358143871062728453810542, [.eps 1907853804379684830992058484175893876, .cls 8 7452553923358143871062728453810542], []⟩,
  ⟨1907853804379684830992058484175893876, [.eps 444230439372829429953946996], []⟩, ⟨19084089, [.eps 441755809812408857946646894], []⟩,
  ⟨7452553923358143871062728470587758, [.eps 1907853804379684830992058488470861172, .cls 8 7452553923358143871062728470587758], []⟩,
  ⟨1907853804379684830992058488470861172, [.eps 19084089], []⟩, ⟨19084336, [.cls 30 19084337], []⟩,
  ⟨441755809812408857946646894, [.cls 3 1897326755962291939861562501014450737, .cls 2 1897326755962291939861562501014450737], []⟩,
  ⟨1897326755962291939861562501014450737, [.eps 441755809812408857946628913, .cls 3 1897326755962291939861562501014450737, .cls 2 1897326755962291939861562501014450737, .eps 113089487311976667634341999988], []⟩,
  ⟨441755809812408857946628913, [], [bs "COPY_TO_MINOR"]⟩, ⟨113089487311976667634341999988, [.eps 19084336], []⟩, ⟨19084337, [.cls 31 19084338], []⟩,
  ⟨19084338, [.eps 452598326792275805485295982], []⟩, ⟨19084339, [.eps 7452553923358143871062728520919406], []⟩,
  ⟨452598326792275805485295982, [.cls 0 452598326792275805485299249], []⟩,
  ⟨452598326792275805485299249, [.eps 452598326792275805485278001, .eps 115865171658822606204236166516, .cls 0 452598326792275805485299249], []⟩,
  ⟨452598326792275805485278001, [], [bs "COPY_TO_VALUE"]⟩, ⟨115865171658822606204236166516, [.eps 19084339], []⟩,
  ⟨7452553923358143871062728520919406, [.eps 1907853804379684830992058501355763060, .cls 8 7452553923358143871062728520919406], []⟩,
  ⟨1907853804379684830992058501355763060, [.eps 444230439372829429953946996], []⟩,
  ⟨2114655913077310365607951141775001935160271598949, [.eps 7452553923358143871062728537696622], []⟩,
  ⟨19084340, [.eps 452598326792275805535627630], []⟩,
  ⟨7452553923358143871062728537696622, [.eps 1907853804379684830992058505650730356, .cls 8 7452553923358143871062728537696622], []⟩,
  ⟨1907853804379684830992058505650730356, [.eps 19084340], []⟩, ⟨19084341, [.eps 7452553923358143871062728571251054], []⟩,
  ⟨452598326792275805535627630, [.cls 0 452598326792275805535630897], []⟩,
  ⟨452598326792275805535630897, [.eps 452598326792275805535609649, .eps 115865171658822606217121068404, .cls 0 452598326792275805535630897], []⟩,
  ⟨452598326792275805535609649, [], [bs "COPY_TO_VALUE"]⟩, ⟨115865171658822606217121068404, [.eps 19084341], []⟩,
  ⟨7452553923358143871062728571251054, [.eps 1907853804379684830992058514240664948, .cls 8 7452553923358143871062728571251054], []⟩,
  ⟨1907853804379684830992058514240664948, [.eps 2097818937564705676896338321103051924755918517605], []⟩,
  ⟨1735275153812239938314604, [.eps 24081780, .eps 19084342], []⟩, ⟨19084342, [], [bs "GOT_NAMEVALUE"]⟩,
  ⟨113722992479446318695121319269, [.eps 24081780, .eps 19084343], []⟩, ⟨19084343, [], [bs "GOT_NAMEVALUE_CONT"]⟩,
  ⟨444230439372829429953946996, [.eps 24081780, .eps 19084344], []⟩, ⟨19084344, [], [bs "GOT_NAMEVALUE_CSET"]⟩,
  ⟨2097818937564705676896338321103051924755918517605, [.eps 24081780, .eps 19084345], []⟩, ⟨19084345, [], [bs "GOT_NAMEVALUE_CCONT"]⟩,
  ⟨24081780, [], []⟩], 50, 40⟩, ⟨1569297428338, [⟨92526, [.cls 2 1573592589617], []⟩, ⟨1573592589617, [.eps 24081780, .cls 2 1573592589617], []⟩,
  ⟨24081780, [], []⟩], 1, 1⟩, ⟨1725460769897075010596722, [⟨92526, [.eps 1725460769896756239296878], []⟩,
  ⟨1725460769896756239296878, [.cls 2 28948428036084177126052674233649], []⟩,
  ⟨28948428036084177126052674233649, [.cls 2 28948428036084177126052674233649, .eps 441717957093569597260395892], []⟩,
  ⟨441717957093569597260395892, [.eps 23490415], []⟩, ⟨23490415, [.cls 32 23224690], []⟩, ⟨23224690, [.eps 1725608632079722084198766], []⟩,
  ⟨1725608632079722084198766, [.cls 3 7411432640477702816407036758028849, .cls 2 7411432640477702816407036758028849], []⟩,
  ⟨7411432640477702816407036758028849, [.eps 1725608632079722084180785, .cls 3 7411432640477702816407036758028849, .cls 2 7411432640477702816407036758028849, .eps 441755809812408853555279220], []⟩,
  ⟨1725608632079722084180785, [], [bs "COPY_TO_MINOR"]⟩, ⟨441755809812408853555279220, [.eps 24081780], []⟩, ⟨24081780, [.eps 74545], []⟩,
  ⟨74545, [], [bs "GOT_MAJORMINOR"]⟩], 2, 3⟩]

/-- Before the block `component`. -/
def nvpEnv0 : NfaEnv := 
  ⟨[(21976915, [.inline 26476790265512817765 92526 24081780]), (1431453978450, [.cls 3, .cls 2]), (1435614659889, [.cls 2]), (370905881269573, [.inline 393021239685221 92526 24081780, .cls 1, .cls 0]), (1469974336837, [.cls 0])], [21319507], nvpBlocks, some (9, 10), [], [(none, ⟨[], none⟩)], []⟩

/-- The block `component`. -/
def nvpComponentBlock : Block := 
  ⟨6556623343501458108020, [⟨92526, [.eps 1897164179773163124882374406492285294, .eps 6758528709573676525934, .eps 7431080903227009718019003536796014], []⟩,
  ⟨7431080903227009718019003536796014, [.eps 2299808146318420886784595152302107549068552208093211540744558, .eps 2299808146318420886784595152302107549068552208093211591076206, .eps 2299808146318420886784595152302107549068552208093211658185070, .eps 588750885457515747016856358989339532561549365271862154477070702, .eps 588750885457515747016856358989339532561549365271862154527402350], []⟩,
  ⟨7431080903227009718019003536778033, [.eps 535465810987730717003484059195505378321309220366702], []⟩,
  ⟨2299808146318420886784595152302107549068552208093211540744558, [.cls 8 2299808146318420886784595152302107549068552208093211540744558, .eps 588750885457515747016856358989339532561549365271862154431001972], []⟩,
  ⟨588750885457515747016856358989339532561549365271862154431001972, [.eps 7431080903227009718019003536778033], []⟩,
  ⟨7431080903227009718019003536778034, [.eps 2299808146318420886784595152302107549068552208093211574298990], []⟩,
  ⟨535465810987730717003484059195505378321309220366702, [.cls 2 8983625571556331589002324813679779961258322192905022563633], []⟩,
  ⟨8983625571556331589002324813679779961258322192905022563633, [.eps 137079247612859063552891919154049376850255160414270836, .cls 9 8983625571556331589002324813679779961258322192905022563634, .cls 2 8983625571556331589002324813679779961258322192905022563633, .eps 535465810987730717003484059195505378321309220348722, .eps 535465810987730717003484059195505378321309220348721], []⟩,
  ⟨535465810987730717003484059195505378321309220348721, [], [bs "COPY_TO_NAME"]⟩,
  ⟨535465810987730717003484059195505378321309220348722, [], [bs "GOT_NAME"]⟩,
  ⟨8983625571556331589002324813679779961258322192905022563634, [.eps 137079247612859063552891919154049376850255160414270836, .cls 2 8983625571556331589002324813679779961258322192905022563633, .cls 10 8983625571556331589002324813679779961258322192905022563634, .eps 535465810987730717003484059195505378321309220348724, .eps 535465810987730717003484059195505378321309220348723], []⟩,
  ⟨535465810987730717003484059195505378321309220348723, [], [bs "COPY_TO_NAME"]⟩,
  ⟨535465810987730717003484059195505378321309220348724, [], [bs "GOT_NAME_TRAILING_SPACE"]⟩,
  ⟨137079247612859063552891919154049376850255160414270836, [.eps 7431080903227009718019003536778034], []⟩,
  ⟨7431080903227009718019003536778035, [.cls 15 137079247612859063552891919154068395874134595835093356], []⟩,
  ⟨2299808146318420886784595152302107549068552208093211574298990, [.cls 8 2299808146318420886784595152302107549068552208093211574298990, .eps 588750885457515747016856358989339532561549365271862163020936564], []⟩,
  ⟨588750885457515747016856358989339532561549365271862163020936564, [.eps 7431080903227009718019003536778035], []⟩,
  ⟨7431080903227009718019003536778036, [.eps 535465810987730717003484059195505378321309270698350], []⟩,
  ⟨2299808146318420886784595152302107549068552208093211591076206, [.cls 8 2299808146318420886784595152302107549068552208093211591076206, .eps 588750885457515747016856358989339532561549365271862167315903860], []⟩,
  ⟨588750885457515747016856358989339532561549365271862167315903860, [.eps 7431080903227009718019003536778036], []⟩,
  ⟨7431080903227009718019003536778037, [.cls 16 7431080903227009718019003536778038], []⟩,
  ⟨535465810987730717003484059195505378321309270698350, [.cls 2 8983625571556331589002324813679779961258323037329952695601], []⟩,
  ⟨8983625571556331589002324813679779961258323037329952695601, [.eps 137079247612859063552891919154049376850255173299172724, .cls 9 8983625571556331589002324813679779961258323037329952695602, .cls 2 8983625571556331589002324813679779961258323037329952695601, .eps 535465810987730717003484059195505378321309270680370, .eps 535465810987730717003484059195505378321309270680369], []⟩,
  ⟨535465810987730717003484059195505378321309270680369, [], [bs "COPY_TO_NAME"]⟩,
  ⟨535465810987730717003484059195505378321309270680370, [], [bs "GOT_NAME"]⟩,
  ⟨8983625571556331589002324813679779961258323037329952695602, [.eps 137079247612859063552891919154049376850255173299172724, .cls 2 8983625571556331589002324813679779961258323037329952695601, .cls 10 8983625571556331589002324813679779961258323037329952695602, .eps 535465810987730717003484059195505378321309270680372, .eps 535465810987730717003484059195505378321309270680371], []⟩,
  ⟨535465810987730717003484059195505378321309270680371, [], [bs "COPY_TO_NAME"]⟩,
  ⟨535465810987730717003484059195505378321309270680372, [], [bs "GOT_NAME_TRAILING_SPACE"]⟩,
  ⟨137079247612859063552891919154049376850255173299172724, [.eps 7431080903227009718019003536778037], []⟩,
  ⟨7431080903227009718019003536778038, [.eps 35092287388891920269540331303424588884031674558526155118], []⟩,
  ⟨7431080903227009718019003536778039, [.eps 2299808146318420886784595152302107549068552208093211641407854], []⟩,
  ⟨35092287388891920269540331303424588884031674558526155118, [.cls 14 35092287388891920269540331303424588884031674558526155118, .cls 13 8983625571556331589002324813676694754312108686982696105332], []⟩,
  ⟨8983625571556331589002324813676694754312108686982696105332, [.eps 7431080903227009718019003536778039], []⟩,
  ⟨7431080903227009718019003536778040, [.cls 17 8983625571556331589002324813681026392006492234746413610341], []⟩,
  ⟨2299808146318420886784595152302107549068552208093211641407854, [.cls 8 2299808146318420886784595152302107549068552208093211641407854, .eps 588750885457515747016856358989339532561549365271862180200805748], []⟩,
  ⟨588750885457515747016856358989339532561549365271862180200805748, [.eps 7431080903227009718019003536778040], []⟩,
  ⟨7431080903227009718019003536778041, [.eps 535465810987730717003484059195505378321309337807214], []⟩,
  ⟨2299808146318420886784595152302107549068552208093211658185070, [.cls 8 2299808146318420886784595152302107549068552208093211658185070, .eps 588750885457515747016856358989339532561549365271862184495773044], []⟩,
  ⟨588750885457515747016856358989339532561549365271862184495773044, [.eps 7431080903227009718019003536778041], []⟩,
  ⟨1902356711226114487812864905415176496, [.cls 18 1902356711226114487812864905415176497], []⟩,
  ⟨535465810987730717003484059195505378321309337807214, [.cls 2 8983625571556331589002324813679779961258324163229859538225], []⟩,
  ⟨8983625571556331589002324813679779961258324163229859538225, [.eps 137079247612859063552891919154049376850255190479041908, .cls 9 8983625571556331589002324813679779961258324163229859538226, .cls 2 8983625571556331589002324813679779961258324163229859538225, .eps 535465810987730717003484059195505378321309337789234, .eps 535465810987730717003484059195505378321309337789233], []⟩,
  ⟨535465810987730717003484059195505378321309337789233, [], [bs "COPY_TO_NAME"]⟩,
  ⟨535465810987730717003484059195505378321309337789234, [], [bs "GOT_NAME"]⟩,
  ⟨8983625571556331589002324813679779961258324163229859538226, [.eps 137079247612859063552891919154049376850255190479041908, .cls 2 8983625571556331589002324813679779961258324163229859538225, .cls 10 8983625571556331589002324813679779961258324163229859538226, .eps 535465810987730717003484059195505378321309337789236, .eps 535465810987730717003484059195505378321309337789235], []⟩,
  ⟨535465810987730717003484059195505378321309337789235, [], [bs "COPY_TO_NAME"]⟩,
  ⟨535465810987730717003484059195505378321309337789236, [], [bs "GOT_NAME_TRAILING_SPACE"]⟩,
  ⟨137079247612859063552891919154049376850255190479041908, [.eps 1902356711226114487812864905415176496], []⟩,
  ⟨1902356711226114487812864905415176497, [.eps 588750885457515747016856358989339532561549365271862154460293486], []⟩,
  ⟨1902356711226114487812864905415176498, [.cls 19 35092287388891920269540331303441509343775352539529307508], []⟩,
  ⟨588750885457515747016856358989339532561549365271862154460293486, [.cls 8 588750885457515747016856358989339532561549365271862154460293486, .eps 150720226677124031236315227901270920335756637509596711541835527540], []⟩,
  ⟨150720226677124031236315227901270920335756637509596711541835527540, [.eps 1902356711226114487812864905415176498], []⟩,
  ⟨1902356711226114487812864905415176499, [.eps 137079247612859063552891919154049376850255156182149486], []⟩,
  ⟨588750885457515747016856358989339532561549365271862154477070702, [.cls 8 588750885457515747016856358989339532561549365271862154477070702, .eps 150720226677124031236315227901270920335756637509596711546130494836], []⟩,
  ⟨150720226677124031236315227901270920335756637509596711546130494836, [.eps 1902356711226114487812864905415176499], []⟩,
  ⟨1902356711226114487812864905415176500, [.cls 20 1902356711226114487812864905415176501], []⟩,
  ⟨137079247612859063552891919154049376850255156182149486, [.cls 2 2299808146318420886784595152302023670082130410381678534812977], []⟩,
  ⟨2299808146318420886784595152302023670082130410381678534812977, [.eps 35092287388891920269540331303436640473665319982630663540, .cls 9 2299808146318420886784595152302023670082130410381678534812978, .cls 2 2299808146318420886784595152302023670082130410381678534812977, .eps 137079247612859063552891919154049376850255156182131506, .eps 137079247612859063552891919154049376850255156182131505], []⟩,
  ⟨137079247612859063552891919154049376850255156182131505, [], [bs "COPY_TO_NAME"]⟩,
  ⟨137079247612859063552891919154049376850255156182131506, [], [bs "GOT_NAME"]⟩,
  ⟨2299808146318420886784595152302023670082130410381678534812978, [.eps 35092287388891920269540331303436640473665319982630663540, .cls 2 2299808146318420886784595152302023670082130410381678534812977, .cls 10 2299808146318420886784595152302023670082130410381678534812978, .eps 137079247612859063552891919154049376850255156182131508, .eps 137079247612859063552891919154049376850255156182131507], []⟩,
  ⟨137079247612859063552891919154049376850255156182131507, [], [bs "COPY_TO_NAME"]⟩,
  ⟨137079247612859063552891919154049376850255156182131508, [], [bs "GOT_NAME_TRAILING_SPACE"]⟩,
  ⟨35092287388891920269540331303436640473665319982630663540, [.eps 1902356711226114487812864905415176500], []⟩,
  ⟨1902356711226114487812864905415176501, [.cls 21 1902356711226114487812864905415176502], []⟩,
  ⟨1902356711226114487812864905415176502, [.cls 22 1902356711226114487812864905415176503], []⟩,
  ⟨1902356711226114487812864905415176503, [.eps 588750885457515747016856358989339532561549365271862154510625134], []⟩,
  ⟨1902356711226114487812864905415176504, [.cls 23 35092287388891920269540331303441509343775352539529307508], []⟩,
  ⟨588750885457515747016856358989339532561549365271862154510625134, [.cls 8 588750885457515747016856358989339532561549365271862154510625134, .eps 150720226677124031236315227901270920335756637509596711554720429428], []⟩,
  ⟨150720226677124031236315227901270920335756637509596711554720429428, [.eps 1902356711226114487812864905415176504], []⟩,
  ⟨1902356711226114487812864905415176505, [.eps 137079247612859063552891919154049376850255156232481134], []⟩,
  ⟨588750885457515747016856358989339532561549365271862154527402350, [.cls 8 588750885457515747016856358989339532561549365271862154527402350, .eps 150720226677124031236315227901270920335756637509596711559015396724], []⟩,
  ⟨150720226677124031236315227901270920335756637509596711559015396724, [.eps 1902356711226114487812864905415176505], []⟩,
  ⟨1902356711226114487812864905415176752, [.cls 24 1902356711226114487812864905415176753], []⟩,
  ⟨137079247612859063552891919154049376850255156232481134, [.cls 2 2299808146318420886784595152302023670082130411226103464944945], []⟩,
  ⟨2299808146318420886784595152302023670082130411226103464944945, [.eps 35092287388891920269540331303436640473665319995515565428, .cls 9 2299808146318420886784595152302023670082130411226103464944946, .cls 2 2299808146318420886784595152302023670082130411226103464944945, .eps 137079247612859063552891919154049376850255156232463154, .eps 137079247612859063552891919154049376850255156232463153], []⟩,
  ⟨137079247612859063552891919154049376850255156232463153, [], [bs "COPY_TO_NAME"]⟩,
  ⟨137079247612859063552891919154049376850255156232463154, [], [bs "GOT_NAME"]⟩,
  ⟨2299808146318420886784595152302023670082130411226103464944946, [.eps 35092287388891920269540331303436640473665319995515565428, .cls 2 2299808146318420886784595152302023670082130411226103464944945, .cls 10 2299808146318420886784595152302023670082130411226103464944946, .eps 137079247612859063552891919154049376850255156232463156, .eps 137079247612859063552891919154049376850255156232463155], []⟩,
  ⟨137079247612859063552891919154049376850255156232463155, [], [bs "COPY_TO_NAME"]⟩,
  ⟨137079247612859063552891919154049376850255156232463156, [], [bs "GOT_NAME_TRAILING_SPACE"]⟩,
  ⟨35092287388891920269540331303436640473665319995515565428, [.eps 1902356711226114487812864905415176752], []⟩,
  ⟨1902356711226114487812864905415176753, [.cls 25 1902356711226114487812864905415176754], []⟩,
  ⟨1902356711226114487812864905415176754, [.cls 26 1902356711226114487812864905415176755], []⟩,
  ⟨1902356711226114487812864905415176755, [.eps 588750885457515747016856358989339532561549365271862154560956782], []⟩,
  ⟨1902356711226114487812864905415176756, [.cls 27 165718641772532343166888025953999750308606569783911079020866453525030398489957], []⟩,
  ⟨588750885457515747016856358989339532561549365271862154560956782, [.cls 8 588750885457515747016856358989339532561549365271862154560956782, .eps 150720226677124031236315227901270920335756637509596711567605331316], []⟩,
  ⟨150720226677124031236315227901270920335756637509596711567605331316, [.eps 1902356711226114487812864905415176756], []⟩,
  ⟨137079247612859063552891919154068395874134595835093356, [.eps 588750885457515747016856358989339532561549365271862154577733998, .eps 588750885457515747016856358989339532561549365271862158755260782, .eps 588750885457515747016856358989339532561549365271862158805592430], []⟩,
  ⟨1902356711226114487812864905415176757, [.eps 8983625571556331589002324813680733747196650614981699463534], []⟩,
  ⟨588750885457515747016856358989339532561549365271862154577733998, [.cls 8 588750885457515747016856358989339532561549365271862154577733998, .eps 150720226677124031236315227901270920335756637509596711571900298612], []⟩,
  ⟨150720226677124031236315227901270920335756637509596711571900298612, [.eps 1902356711226114487812864905415176757], []⟩,
  ⟨1902356711226114487812864905415176758, [.eps 588750885457515747016856358989339532561549365271862154611288430], []⟩,
  ⟨8983625571556331589002324813680733747196650614981699463534, [.cls 11 2299808146318420886784595152302267839282342557435315063191088], []⟩,
  ⟨2299808146318420886784595152302267839282342557435315063191088, [.cls 0 2299808146318420886784595152302267839282342557435315063191089, .cls 1 2299808146318420886784595152302267839282342557435315063191089, .eps 42423972293768279850723334644222554102961909410753174650181294519324423656204654], []⟩,
  ⟨42423972293768279850723334644222554102961909410753174650181294519324423656204654, [.cls 4 42423972293768279850723334644222554102961909410753174650181294519324423656186673, .cls 6 42423972293768279850723334644222554102961909410753174650181294519324423656186674], []⟩,
  ⟨42423972293768279850723334644222554102961909410753174650181294519324423656186673, [.cls 5 10860536907204679641785173668920973850358248809152812710446411396947052455988786548], []⟩,
  ⟨42423972293768279850723334644222554102961909410753174650181294519324423656186674, [.cls 7 10860536907204679641785173668920973850358248809152812710446411396947052455988786548], []⟩,
  ⟨10860536907204679641785173668920973850358248809152812710446411396947052455988786548, [.eps 2299808146318420886784595152302267839282342557435315063191089], []⟩,
  ⟨2299808146318420886784595152302267839282342557435315063191089, [.eps 2299808146318420886784595152302267839282342557435315063191090, .cls 0 2299808146318420886784595152302267839282342557435315063191089, .cls 1 2299808146318420886784595152302267839282342557435315063191089, .eps 42423972293768279850723334644222554102961909410753174650181294519324423672981870, .eps 8983625571556331589002324813680733747196650614981699445553], []⟩,
  ⟨8983625571556331589002324813680733747196650614981699445553, [], [bs "COPY_TO_VALUE"]⟩,
  ⟨42423972293768279850723334644222554102961909410753174650181294519324423672981870, [.cls 4 42423972293768279850723334644222554102961909410753174650181294519324423672963889, .cls 6 42423972293768279850723334644222554102961909410753174650181294519324423672963890], []⟩,
  ⟨42423972293768279850723334644222554102961909410753174650181294519324423672963889, [.cls 5 10860536907204679641785173668920973850358248809152812710446411396947052460283753844], []⟩,
  ⟨42423972293768279850723334644222554102961909410753174650181294519324423672963890, [.cls 7 10860536907204679641785173668920973850358248809152812710446411396947052460283753844], []⟩,
  ⟨10860536907204679641785173668920973850358248809152812710446411396947052460283753844, [.eps 2299808146318420886784595152302267839282342557435315063191089], []⟩,
  ⟨2299808146318420886784595152302267839282342557435315063191090, [.cls 12 2299808146318420886784595152302267839282342557435315063059828], []⟩,
  ⟨2299808146318420886784595152302267839282342557435315063059828, [.eps 1902356711226114487812864905415176758], []⟩,
  ⟨588750885457515747016856358989339532561549365271862154611288430, [.cls 8 588750885457515747016856358989339532561549365271862154611288430, .eps 150720226677124031236315227901270920335756637509596711580490233204], []⟩,
  ⟨150720226677124031236315227901270920335756637509596711580490233204, [.eps 137079247612859063552891919154054468654416539161551212], []⟩,
  ⟨1902356711226114487812864905415176759, [.eps 35092287388891920269540331303446311862946976402271791470], []⟩,
  ⟨588750885457515747016856358989339532561549365271862158755260782, [.cls 8 588750885457515747016856358989339532561549365271862158755260782, .eps 150720226677124031236315227901270920335756637509596712641347155316], []⟩,
  ⟨150720226677124031236315227901270920335756637509596712641347155316, [.eps 1902356711226114487812864905415176759], []⟩,
  ⟨1902356711226114487812864905415176760, [.eps 588750885457515747016856358989339532561549365271862158788815214], []⟩,
  ⟨35092287388891920269540331303446311862946976402271791470, [.cls 0 35092287388891920269540331303446311862946976402271794737], []⟩,
  ⟨35092287388891920269540331303446311862946976402271794737, [.cls 0 35092287388891920269540331303446311862946976402271794737, .eps 8983625571556331589002324813682255836914425958981579011444, .eps 35092287388891920269540331303446311862946976402271773489], []⟩,
  ⟨35092287388891920269540331303446311862946976402271773489, [], [bs "COPY_TO_VALUE"]⟩,
  ⟨8983625571556331589002324813682255836914425958981579011444, [.eps 1902356711226114487812864905415176760], []⟩,
  ⟨588750885457515747016856358989339532561549365271862158788815214, [.cls 8 588750885457515747016856358989339532561549365271862158788815214, .eps 150720226677124031236315227901270920335756637509596712649937089908], []⟩,
  ⟨150720226677124031236315227901270920335756637509596712649937089908, [.eps 137079247612859063552891919154054468654416539161551212], []⟩,
  ⟨1902356711226114487812864905415176761, [.eps 1902356711226114487812864905415177008], []⟩,
  ⟨588750885457515747016856358989339532561549365271862158805592430, [.cls 8 588750885457515747016856358989339532561549365271862158805592430, .eps 150720226677124031236315227901270920335756637509596712654232057204], []⟩,
  ⟨150720226677124031236315227901270920335756637509596712654232057204, [.eps 1902356711226114487812864905415176761], []⟩,
  ⟨1902356711226114487812864905415177008, [.token 0 137079247612859063552891919154054468654416539161551212], []⟩,
  ⟨8983625571556331589002324813681026392006492234746413610341, [.eps 588750885457515747016856358989339532561549365271862158822369646, .eps 588750885457515747016856358989339532561549365271862158872701294], []⟩,
  ⟨1902356711226114487812864905415177009, [.eps 8983625571556331589002324813680733747196650614985944099182], []⟩,
  ⟨588750885457515747016856358989339532561549365271862158822369646, [.cls 8 588750885457515747016856358989339532561549365271862158822369646, .eps 150720226677124031236315227901270920335756637509596712658527024500], []⟩,
  ⟨150720226677124031236315227901270920335756637509596712658527024500, [.eps 1902356711226114487812864905415177009], []⟩,
  ⟨1902356711226114487812864905415177010, [.eps 588750885457515747016856358989339532561549365271862158855924078], []⟩,
  ⟨8983625571556331589002324813680733747196650614985944099182, [.cls 11 2299808146318420886784595152302267839282342557436401689916976], []⟩,
  ⟨2299808146318420886784595152302267839282342557436401689916976, [.cls 0 2299808146318420886784595152302267839282342557436401689916977, .cls 1 2299808146318420886784595152302267839282342557436401689916977, .eps 42423972293768279850723334644222554102961909410773219375297403396735590275639662], []⟩,
  ⟨42423972293768279850723334644222554102961909410773219375297403396735590275639662, [.cls 4 42423972293768279850723334644222554102961909410773219375297403396735590275621681, .cls 6 42423972293768279850723334644222554102961909410773219375297403396735590275621682], []⟩,
  ⟨42423972293768279850723334644222554102961909410773219375297403396735590275621681, [.cls 5 10860536907204679641785173668920973850358248809157944160076135269564311110564148596], []⟩,
  ⟨42423972293768279850723334644222554102961909410773219375297403396735590275621682, [.cls 7 10860536907204679641785173668920973850358248809157944160076135269564311110564148596], []⟩,
  ⟨10860536907204679641785173668920973850358248809157944160076135269564311110564148596, [.eps 2299808146318420886784595152302267839282342557436401689916977], []⟩,
  ⟨2299808146318420886784595152302267839282342557436401689916977, [.eps 2299808146318420886784595152302267839282342557436401689916978, .cls 0 2299808146318420886784595152302267839282342557436401689916977, .cls 1 2299808146318420886784595152302267839282342557436401689916977, .eps 42423972293768279850723334644222554102961909410773219375297403396735590292416878, .eps 8983625571556331589002324813680733747196650614985944081201], []⟩,
  ⟨8983625571556331589002324813680733747196650614985944081201, [], [bs "COPY_TO_VALUE"]⟩,
  ⟨42423972293768279850723334644222554102961909410773219375297403396735590292416878, [.cls 4 42423972293768279850723334644222554102961909410773219375297403396735590292398897, .cls 6 42423972293768279850723334644222554102961909410773219375297403396735590292398898], []⟩,
  ⟨42423972293768279850723334644222554102961909410773219375297403396735590292398897, [.cls 5 10860536907204679641785173668920973850358248809157944160076135269564311114859115892], []⟩,
  ⟨42423972293768279850723334644222554102961909410773219375297403396735590292398898, [.cls 7 10860536907204679641785173668920973850358248809157944160076135269564311114859115892], []⟩,
  ⟨10860536907204679641785173668920973850358248809157944160076135269564311114859115892, [.eps 2299808146318420886784595152302267839282342557436401689916977], []⟩,
  ⟨2299808146318420886784595152302267839282342557436401689916978, [.cls 12 2299808146318420886784595152302267839282342557436401689785716], []⟩,
  ⟨2299808146318420886784595152302267839282342557436401689785716, [.eps 1902356711226114487812864905415177010], []⟩,
  ⟨588750885457515747016856358989339532561549365271862158855924078, [.cls 8 588750885457515747016856358989339532561549365271862158855924078, .eps 150720226677124031236315227901270920335756637509596712667116959092], []⟩,
  ⟨150720226677124031236315227901270920335756637509596712667116959092, [.eps 8983625571556331589002324813680113657735049672589155661157], []⟩,
  ⟨1902356711226114487812864905415177011, [.eps 35092287388891920269540331303446311862946976402389231982], []⟩,
  ⟨588750885457515747016856358989339532561549365271862158872701294, [.cls 8 588750885457515747016856358989339532561549365271862158872701294, .eps 150720226677124031236315227901270920335756637509596712671411926388], []⟩,
  ⟨150720226677124031236315227901270920335756637509596712671411926388, [.eps 1902356711226114487812864905415177011], []⟩,
  ⟨1902356711226114487812864905415177012, [.eps 588750885457515747016856358989339532561549365271862158906255726], []⟩,
  ⟨35092287388891920269540331303446311862946976402389231982, [.cls 0 35092287388891920269540331303446311862946976402389235249], []⟩,
  ⟨35092287388891920269540331303446311862946976402389235249, [.cls 0 35092287388891920269540331303446311862946976402389235249, .eps 8983625571556331589002324813682255836914425959011643782516, .eps 35092287388891920269540331303446311862946976402389214001], []⟩,
  ⟨35092287388891920269540331303446311862946976402389214001, [], [bs "COPY_TO_VALUE"]⟩,
  ⟨8983625571556331589002324813682255836914425959011643782516, [.eps 1902356711226114487812864905415177012], []⟩,
  ⟨588750885457515747016856358989339532561549365271862158906255726, [.cls 8 588750885457515747016856358989339532561549365271862158906255726, .eps 150720226677124031236315227901270920335756637509596712680001860980], []⟩,
  ⟨150720226677124031236315227901270920335756637509596712680001860980, [.eps 8983625571556331589002324813680113657735049672589155661157], []⟩,
  ⟨35092287388891920269540331303441509343775352539529307508, [.eps 588750885457515747016856358989339532561549365271862163050228078, .eps 588750885457515747016856358989339532561549365271862163100559726], []⟩,
  ⟨1902356711226114487812864905415177013, [.cls 28 1902356711226114487812864905415177014], []⟩,
  ⟨588750885457515747016856358989339532561549365271862163050228078, [.cls 8 588750885457515747016856358989339532561549365271862163050228078, .eps 150720226677124031236315227901270920335756637509596713740858783092], []⟩,
  ⟨150720226677124031236315227901270920335756637509596713740858783092, [.eps 1902356711226114487812864905415177013], []⟩,
  ⟨1902356711226114487812864905415177014, [.cls 29 1902356711226114487812864905415177015], []⟩,
  ⟨1902356711226114487812864905415177015, [.eps 35092287388891920269540331303446311862946976406566758766], []⟩,
  ⟨1902356711226114487812864905415177016, [.eps 588750885457515747016856358989339532561549365271862163083782510], []⟩,
  ⟨35092287388891920269540331303446311862946976406566758766, [.cls 0 35092287388891920269540331303446311862946976406566762033], []⟩,
  ⟨35092287388891920269540331303446311862946976406566762033, [.cls 0 35092287388891920269540331303446311862946976406566762033, .eps 8983625571556331589002324813682255836914425960081090639220, .eps 35092287388891920269540331303446311862946976406566740785], []⟩,
  ⟨35092287388891920269540331303446311862946976406566740785, [], [bs "COPY_TO_VALUE"]⟩,
  ⟨8983625571556331589002324813682255836914425960081090639220, [.eps 1902356711226114487812864905415177016], []⟩,
  ⟨588750885457515747016856358989339532561549365271862163083782510, [.cls 8 588750885457515747016856358989339532561549365271862163083782510, .eps 150720226677124031236315227901270920335756637509596713749448717684], []⟩,
  ⟨150720226677124031236315227901270920335756637509596713749448717684, [.eps 35092287388891920269540331303437943975527530031102518644], []⟩,
  ⟨1902356711226114487812864905415177017, [.eps 35092287388891920269540331303435469345967109459095218542], []⟩,
  ⟨588750885457515747016856358989339532561549365271862163100559726, [.cls 8 588750885457515747016856358989339532561549365271862163100559726, .eps 150720226677124031236315227901270920335756637509596713753743684980], []⟩,
  ⟨150720226677124031236315227901270920335756637509596713753743684980, [.eps 1902356711226114487812864905415177017], []⟩,
  ⟨1902356711226114487812864905415177264, [.cls 30 1902356711226114487812864905415177265], []⟩,
  ⟨35092287388891920269540331303435469345967109459095218542, [.cls 2 150720226677124031236315227901260393287339244618466217766287274545, .cls 3 150720226677124031236315227901260393287339244618466217766287274545], []⟩,
  ⟨150720226677124031236315227901260393287339244618466217766287274545, [.eps 8983625571556331589002324813679480152567580021528376341876, .cls 2 150720226677124031236315227901260393287339244618466217766287274545, .cls 3 150720226677124031236315227901260393287339244618466217766287274545, .eps 35092287388891920269540331303435469345967109459095200561], []⟩,
  ⟨35092287388891920269540331303435469345967109459095200561, [], [bs "COPY_TO_MINOR"]⟩,
  ⟨8983625571556331589002324813679480152567580021528376341876, [.eps 1902356711226114487812864905415177264], []⟩,
  ⟨1902356711226114487812864905415177265, [.cls 31 1902356711226114487812864905415177266], []⟩,
  ⟨1902356711226114487812864905415177266, [.eps 35092287388891920269540331303446311862946976406633867630], []⟩,
  ⟨1902356711226114487812864905415177267, [.eps 588750885457515747016856358989339532561549365271862163150891374], []⟩,
  ⟨35092287388891920269540331303446311862946976406633867630, [.cls 0 35092287388891920269540331303446311862946976406633870897], []⟩,
  ⟨35092287388891920269540331303446311862946976406633870897, [.cls 0 35092287388891920269540331303446311862946976406633870897, .eps 8983625571556331589002324813682255836914425960098270508404, .eps 35092287388891920269540331303446311862946976406633849649], []⟩,
  ⟨35092287388891920269540331303446311862946976406633849649, [], [bs "COPY_TO_VALUE"]⟩,
  ⟨8983625571556331589002324813682255836914425960098270508404, [.eps 1902356711226114487812864905415177267], []⟩,
  ⟨588750885457515747016856358989339532561549365271862163150891374, [.cls 8 588750885457515747016856358989339532561549365271862163150891374, .eps 150720226677124031236315227901270920335756637509596713766628586868], []⟩,
  ⟨150720226677124031236315227901270920335756637509596713766628586868, [.eps 35092287388891920269540331303437943975527530031102518644], []⟩,
  ⟨165718641772532343166888025953999750308606569783911079020866453525030398489957, [.eps 588750885457515747016856358989339532561549365271862163167668590], []⟩,
  ⟨1902356711226114487812864905415177268, [.eps 35092287388891920269540331303446311862946976406684199278], []⟩,
  ⟨588750885457515747016856358989339532561549365271862163167668590, [.cls 8 588750885457515747016856358989339532561549365271862163167668590, .eps 150720226677124031236315227901270920335756637509596713770923554164], []⟩,
  ⟨150720226677124031236315227901270920335756637509596713770923554164, [.eps 1902356711226114487812864905415177268], []⟩,
  ⟨1902356711226114487812864905415177269, [.eps 588750885457515747016856358989339532561549365271862163201223022], []⟩,
  ⟨35092287388891920269540331303446311862946976406684199278, [.cls 0 35092287388891920269540331303446311862946976406684202545], []⟩,
  ⟨35092287388891920269540331303446311862946976406684202545, [.cls 0 35092287388891920269540331303446311862946976406684202545, .eps 8983625571556331589002324813682255836914425960111155410292, .eps 35092287388891920269540331303446311862946976406684181297], []⟩,
  ⟨35092287388891920269540331303446311862946976406684181297, [], [bs "COPY_TO_VALUE"]⟩,
  ⟨8983625571556331589002324813682255836914425960111155410292, [.eps 1902356711226114487812864905415177269], []⟩,
  ⟨588750885457515747016856358989339532561549365271862163201223022, [.cls 8 588750885457515747016856358989339532561549365271862163201223022, .eps 150720226677124031236315227901270920335756637509596713779513488756], []⟩,
  ⟨150720226677124031236315227901270920335756637509596713779513488756, [.eps 165718641772532343166888025953982913333093965095199466200194503514626045408613], []⟩,
  ⟨137079247612859063552891919154054468654416539161551212, [.eps 1902356711226114487812864905415177270, .eps 1902356711226114487812864905420174708], []⟩,
  ⟨1902356711226114487812864905415177270, [], [bs "GOT_NAMEVALUE"]⟩,
  ⟨8983625571556331589002324813680113657735049672589155661157, [.eps 1902356711226114487812864905415177271, .eps 1902356711226114487812864905420174708], []⟩,
  ⟨1902356711226114487812864905415177271, [], [bs "GOT_NAMEVALUE_CONT"]⟩,
  ⟨35092287388891920269540331303437943975527530031102518644, [.eps 1902356711226114487812864905415177272, .eps 1902356711226114487812864905420174708], []⟩,
  ⟨1902356711226114487812864905415177272, [], [bs "GOT_NAMEVALUE_CSET"]⟩,
  ⟨165718641772532343166888025953982913333093965095199466200194503514626045408613, [.eps 1902356711226114487812864905415177273, .eps 1902356711226114487812864905420174708], []⟩,
  ⟨1902356711226114487812864905415177273, [], [bs "GOT_NAMEVALUE_CCONT"]⟩, ⟨1902356711226114487812864905420174708, [.eps 24081780], []⟩,
  ⟨6758528709573676525934, [.cls 2 113389296002718839010988221745], []⟩,
  ⟨113389296002718839010988221745, [.eps 6758528709573676507953, .eps 6758528709573676507954, .cls 2 113389296002718839010988221745, .cls 9 113389296002718839010988221746, .eps 1730183349650861191034228], []⟩,
  ⟨6758528709573676507953, [], [bs "COPY_TO_NAME"]⟩, ⟨6758528709573676507954, [], [bs "GOT_NAME"]⟩,
  ⟨113389296002718839010988221746, [.eps 6758528709573676507955, .eps 6758528709573676507956, .cls 10 113389296002718839010988221746, .cls 2 113389296002718839010988221745, .eps 1730183349650861191034228], []⟩,
  ⟨6758528709573676507955, [], [bs "COPY_TO_NAME"]⟩, ⟨6758528709573676507956, [], [bs "GOT_NAME_TRAILING_SPACE"]⟩,
  ⟨1730183349650861191034228, [.eps 24081780], []⟩,
  ⟨1897164179773163124882374406492285294, [.eps 34996502090084639267961461313820373694690937090157209966], []⟩,
  ⟨34996502090084639267961461313820373694690937090157209966, [.cls 2 587143874809801451280671316137608194676547904803979006820836657], []⟩,
  ⟨587143874809801451280671316137608194676547904803979006820836657, [.eps 8959104535061667652598134096338015665840879895080246146420, .cls 2 587143874809801451280671316137608194676547904803979006820836657], []⟩,
  ⟨8959104535061667652598134096338015665840879895080246146420, [.eps 485674030021929759969887848062024839023], []⟩,
  ⟨485674030021929759969887848062024839023, [.cls 32 485674030021929759969887848062024573298], []⟩,
  ⟨485674030021929759969887848062024573298, [.eps 34996502090084639267961461313820373842553120056002111854], []⟩,
  ⟨34996502090084639267961461313820373842553120056002111854, [.cls 2 150308831951309171527851856931227698472259503783290763298288398897, .cls 3 150308831951309171527851856931227698472259503783290763298288398897], []⟩,
  ⟨150308831951309171527851856931227698472259503783290763298288398897, [.eps 8959104535061667652598134096338015703693598734336541029748, .cls 2 150308831951309171527851856931227698472259503783290763298288398897, .cls 3 150308831951309171527851856931227698472259503783290763298288398897, .eps 34996502090084639267961461313820373842553120056002093873], []⟩,
  ⟨34996502090084639267961461313820373842553120056002093873, [], [bs "COPY_TO_MINOR"]⟩,
  ⟨8959104535061667652598134096338015703693598734336541029748, [.eps 485674030021929759969887848062025430388], []⟩,
  ⟨485674030021929759969887848062025430388, [.eps 24081780, .eps 1897164179773163124882374406492267313], []⟩,
  ⟨1897164179773163124882374406492267313, [], [bs "GOT_MAJORMINOR"]⟩, ⟨24081780, [], []⟩], 1, 4⟩

/-- Before the block `main`. -/
def nvpEnv1 : NfaEnv := 
  ⟨[(21976915, [.inline 26476790265512817765 92526 24081780]), (1431453978450, [.cls 3, .cls 2]), (1435614659889, [.cls 2]), (370905881269573, [.inline 393021239685221 92526 24081780, .cls 1, .cls 0]), (1469974336837, [.cls 0])], [21319507], nvpBlocks ++ [nvpComponentBlock], some (10, 0), [], [(none, ⟨[], none⟩)], []⟩

/-- `main` after its first transition. -/
def nvpMain1 : Block := ⟨6130067822, [⟨92526, [.eps 29111538763117749496338749221230], []⟩, ⟨74545, [.eps 7209083605127407795778694606121326], []⟩,
  ⟨29111538763117749496338749221230, [.eps 7452553923358143871062719801030004, .cls 8 29111538763117749496338749221230], []⟩,
  ⟨7452553923358143871062719801030004, [.eps 74545], []⟩, ⟨74546, [.eps 29111538763117749496338782775662], []⟩,
  ⟨7209083605127407795778694606121326, [.eps 571162447445952900331341464316982771953792786311288156922472814, .eps 519469219803752730814577684502167150597779217082734, .eps 146217586546163942484823414865142397088718001932759277673225546094], []⟩,
  ⟨571162447445952900331341464316982771953792786311288156922472814, [.eps 45252151208292920325921702174996407193607350488358300971002098318016151862582378987474807150, .eps 45252151208292920325921702174996407193607350488358300971002098318016151862582378987424475502, .eps 176766215657394220023131649121079715600028712845149613167976946554750593213212418036885870, .eps 176766215657394220023131649121079715600028712845149613167976946554750593213212417969777006, .eps 176766215657394220023131649121079715600028712845149613167976946554750593213212417919445358], []⟩,
  ⟨571162447445952900331341464316982771953792786311288156922454833, [.eps 41156591767769823787531733773900129739201793643913607385004140128326642207451502], []⟩,
  ⟨176766215657394220023131649121079715600028712845149613167976946554750593213212417919445358, [.eps 45252151208292920325921702174996407193607350488358300971002098318016151862582378987378406772, .cls 8 176766215657394220023131649121079715600028712845149613167976946554750593213212417919445358], []⟩,
  ⟨45252151208292920325921702174996407193607350488358300971002098318016151862582378987378406772, [.eps 571162447445952900331341464316982771953792786311288156922454833], []⟩,
  ⟨571162447445952900331341464316982771953792786311288156922454834, [.eps 176766215657394220023131649121079715600028712845149613167976946554750593213212417952999790], []⟩,
  ⟨41156591767769823787531733773900129739201793643913607385004140128326642207451502, [.cls 2 690493029911696171965358004379217639062612159551365676437409619827203794869151922480433], []⟩,
  ⟨690493029911696171965358004379217639062612159551365676437409619827203794869151922480433, [.eps 41156591767769823787531733773900129739201793643913607385004140128326642207433521, .eps 41156591767769823787531733773900129739201793643913607385004140128326642207433522, .cls 2 690493029911696171965358004379217639062612159551365676437409619827203794869151922480433, .cls 9 690493029911696171965358004379217639062612159551365676437409619827203794869151922480434, .eps 10536087492549074889608123846118433213235659172841883490561059872851620405107979636], []⟩,
  ⟨41156591767769823787531733773900129739201793643913607385004140128326642207433521, [], [bs "COPY_TO_NAME"]⟩,
  ⟨41156591767769823787531733773900129739201793643913607385004140128326642207433522, [], [bs "GOT_NAME"]⟩,
  ⟨690493029911696171965358004379217639062612159551365676437409619827203794869151922480434, [.eps 41156591767769823787531733773900129739201793643913607385004140128326642207433523, .eps 41156591767769823787531733773900129739201793643913607385004140128326642207433524, .cls 10 690493029911696171965358004379217639062612159551365676437409619827203794869151922480434, .cls 2 690493029911696171965358004379217639062612159551365676437409619827203794869151922480433, .eps 10536087492549074889608123846118433213235659172841883490561059872851620405107979636], []⟩,
  ⟨41156591767769823787531733773900129739201793643913607385004140128326642207433523, [], [bs "COPY_TO_NAME"]⟩,
  ⟨41156591767769823787531733773900129739201793643913607385004140128326642207433524, [], [bs "GOT_NAME_TRAILING_SPACE"]⟩,
  ⟨10536087492549074889608123846118433213235659172841883490561059872851620405107979636, [.eps 571162447445952900331341464316982771953792786311288156922454834], []⟩,
  ⟨571162447445952900331341464316982771953792786311288156922454835, [.cls 15 10536087492549074889608123846118433213235659172841883490561078891875499840528802156], []⟩,
  ⟨176766215657394220023131649121079715600028712845149613167976946554750593213212417952999790, [.eps 45252151208292920325921702174996407193607350488358300971002098318016151862582378995968341364, .cls 8 176766215657394220023131649121079715600028712845149613167976946554750593213212417952999790], []⟩,
  ⟨45252151208292920325921702174996407193607350488358300971002098318016151862582378995968341364, [.eps 571162447445952900331341464316982771953792786311288156922454835], []⟩,
  ⟨571162447445952900331341464316982771953792786311288156922454836, [.eps 41156591767769823787531733773900129739201793643913607385004140128326642257783150], []⟩,
  ⟨176766215657394220023131649121079715600028712845149613167976946554750593213212417969777006, [.eps 45252151208292920325921702174996407193607350488358300971002098318016151862582379000263308660, .cls 8 176766215657394220023131649121079715600028712845149613167976946554750593213212417969777006], []⟩,
  ⟨45252151208292920325921702174996407193607350488358300971002098318016151862582379000263308660, [.eps 571162447445952900331341464316982771953792786311288156922454836], []⟩,
  ⟨571162447445952900331341464316982771953792786311288156922454837, [.cls 16 571162447445952900331341464316982771953792786311288156922454838], []⟩,
  ⟨41156591767769823787531733773900129739201793643913607385004140128326642257783150, [.cls 2 690493029911696171965358004379217639062612159551365676437409619827203795713576852612401], []⟩,
  ⟨690493029911696171965358004379217639062612159551365676437409619827203795713576852612401, [.eps 41156591767769823787531733773900129739201793643913607385004140128326642257765169, .eps 41156591767769823787531733773900129739201793643913607385004140128326642257765170, .cls 2 690493029911696171965358004379217639062612159551365676437409619827203795713576852612401, .cls 9 690493029911696171965358004379217639062612159551365676437409619827203795713576852612402, .eps 10536087492549074889608123846118433213235659172841883490561059872851620417992881524], []⟩,
  ⟨41156591767769823787531733773900129739201793643913607385004140128326642257765169, [], [bs "COPY_TO_NAME"]⟩,
  ⟨41156591767769823787531733773900129739201793643913607385004140128326642257765170, [], [bs "GOT_NAME"]⟩,
  ⟨690493029911696171965358004379217639062612159551365676437409619827203795713576852612402, [.eps 41156591767769823787531733773900129739201793643913607385004140128326642257765171, .eps 41156591767769823787531733773900129739201793643913607385004140128326642257765172, .cls 10 690493029911696171965358004379217639062612159551365676437409619827203795713576852612402, .cls 2 690493029911696171965358004379217639062612159551365676437409619827203795713576852612401, .eps 10536087492549074889608123846118433213235659172841883490561059872851620417992881524], []⟩,
  ⟨41156591767769823787531733773900129739201793643913607385004140128326642257765171, [], [bs "COPY_TO_NAME"]⟩,
  ⟨41156591767769823787531733773900129739201793643913607385004140128326642257765172, [], [bs "GOT_NAME_TRAILING_SPACE"]⟩,
  ⟨10536087492549074889608123846118433213235659172841883490561059872851620417992881524, [.eps 571162447445952900331341464316982771953792786311288156922454837], []⟩,
  ⟨571162447445952900331341464316982771953792786311288156922454838, [.eps 2697238398092563171739679704606318902588328748247522173583619275860381177200115607918], []⟩,
  ⟨571162447445952900331341464316982771953792786311288156922454839, [.eps 176766215657394220023131649121079715600028712845149613167976946554750593213212418020108654], []⟩,
  ⟨2697238398092563171739679704606318902588328748247522173583619275860381177200115607918, [.cls 13 690493029911696171965358004379217639062612159551365676437406534620257581363229596022132, .cls 14 2697238398092563171739679704606318902588328748247522173583619275860381177200115607918], []⟩,
  ⟨690493029911696171965358004379217639062612159551365676437406534620257581363229596022132, [.eps 571162447445952900331341464316982771953792786311288156922454839], []⟩,
  ⟨571162447445952900331341464316982771953792786311288156922454840, [.cls 17 690493029911696171965358004379217639062612159551365676437410866257951964910993313527141], []⟩,
  ⟨176766215657394220023131649121079715600028712845149613167976946554750593213212418020108654, [.eps 45252151208292920325921702174996407193607350488358300971002098318016151862582379013148210548, .cls 8 176766215657394220023131649121079715600028712845149613167976946554750593213212418020108654], []⟩,
  ⟨45252151208292920325921702174996407193607350488358300971002098318016151862582379013148210548, [.eps 571162447445952900331341464316982771953792786311288156922454840], []⟩,
  ⟨571162447445952900331341464316982771953792786311288156922454841, [.eps 41156591767769823787531733773900129739201793643913607385004140128326642324892014], []⟩,
  ⟨176766215657394220023131649121079715600028712845149613167976946554750593213212418036885870, [.eps 45252151208292920325921702174996407193607350488358300971002098318016151862582379017443177844, .cls 8 176766215657394220023131649121079715600028712845149613167976946554750593213212418036885870], []⟩,
  ⟨45252151208292920325921702174996407193607350488358300971002098318016151862582379017443177844, [.eps 571162447445952900331341464316982771953792786311288156922454841], []⟩,
  ⟨146217586546163942484823414865147589620170953295689768172148437296, [.cls 18 146217586546163942484823414865147589620170953295689768172148437297], []⟩,
  ⟨41156591767769823787531733773900129739201793643913607385004140128326642324892014, [.cls 2 690493029911696171965358004379217639062612159551365676437409619827203796839476759455025], []⟩,
  ⟨690493029911696171965358004379217639062612159551365676437409619827203796839476759455025, [.eps 41156591767769823787531733773900129739201793643913607385004140128326642324874033, .eps 41156591767769823787531733773900129739201793643913607385004140128326642324874034, .cls 2 690493029911696171965358004379217639062612159551365676437409619827203796839476759455025, .cls 9 690493029911696171965358004379217639062612159551365676437409619827203796839476759455026, .eps 10536087492549074889608123846118433213235659172841883490561059872851620435172750708], []⟩,
  ⟨41156591767769823787531733773900129739201793643913607385004140128326642324874033, [], [bs "COPY_TO_NAME"]⟩,
  ⟨41156591767769823787531733773900129739201793643913607385004140128326642324874034, [], [bs "GOT_NAME"]⟩,
  ⟨690493029911696171965358004379217639062612159551365676437409619827203796839476759455026, [.eps 41156591767769823787531733773900129739201793643913607385004140128326642324874035, .eps 41156591767769823787531733773900129739201793643913607385004140128326642324874036, .cls 10 690493029911696171965358004379217639062612159551365676437409619827203796839476759455026, .cls 2 690493029911696171965358004379217639062612159551365676437409619827203796839476759455025, .eps 10536087492549074889608123846118433213235659172841883490561059872851620435172750708], []⟩,
  ⟨41156591767769823787531733773900129739201793643913607385004140128326642324874035, [], [bs "COPY_TO_NAME"]⟩,
  ⟨41156591767769823787531733773900129739201793643913607385004140128326642324874036, [], [bs "GOT_NAME_TRAILING_SPACE"]⟩,
  ⟨10536087492549074889608123846118433213235659172841883490561059872851620435172750708, [.eps 146217586546163942484823414865147589620170953295689768172148437296], []⟩,
  ⟨146217586546163942484823414865147589620170953295689768172148437297, [.eps 45252151208292920325921702174996407193607350488358300971002098318016151862582378987407698286], []⟩,
  ⟨146217586546163942484823414865147589620170953295689768172148437298, [.cls 19 2697238398092563171739679704606318902588328748247522173583636196320124855181118760308], []⟩,
  ⟨45252151208292920325921702174996407193607350488358300971002098318016151862582378987407698286, [.eps 11584550709322987603435955756799080241563481725019725048576537169412134876821089020776371156340, .cls 8 45252151208292920325921702174996407193607350488358300971002098318016151862582378987407698286], []⟩,
  ⟨11584550709322987603435955756799080241563481725019725048576537169412134876821089020776371156340, [.eps 146217586546163942484823414865147589620170953295689768172148437298], []⟩,
  ⟨146217586546163942484823414865147589620170953295689768172148437299, [.eps 10536087492549074889608123846118433213235659172841883490561059872851620400875858286], []⟩,
  ⟨45252151208292920325921702174996407193607350488358300971002098318016151862582378987424475502, [.eps 11584550709322987603435955756799080241563481725019725048576537169412134876821089020780666123636, .cls 8 45252151208292920325921702174996407193607350488358300971002098318016151862582378987424475502], []⟩,
  ⟨11584550709322987603435955756799080241563481725019725048576537169412134876821089020780666123636, [.eps 146217586546163942484823414865147589620170953295689768172148437299], []⟩,
  ⟨146217586546163942484823414865147589620170953295689768172148437300, [.cls 20 146217586546163942484823414865147589620170953295689768172148437301], []⟩,
  ⟨10536087492549074889608123846118433213235659172841883490561059872851620400875858286, [.cls 2 176766215657394220023131649121079715600028712845149613167976862675764171415500884913513777], []⟩,
  ⟨176766215657394220023131649121079715600028712845149613167976862675764171415500884913513777, [.eps 10536087492549074889608123846118433213235659172841883490561059872851620400875840305, .eps 10536087492549074889608123846118433213235659172841883490561059872851620400875840306, .cls 2 176766215657394220023131649121079715600028712845149613167976862675764171415500884913513777, .cls 9 176766215657394220023131649121079715600028712845149613167976862675764171415500884913513778, .eps 2697238398092563171739679704606318902588328748247522173583631327450014822624220116340], []⟩,
  ⟨10536087492549074889608123846118433213235659172841883490561059872851620400875840305, [], [bs "COPY_TO_NAME"]⟩,
  ⟨10536087492549074889608123846118433213235659172841883490561059872851620400875840306, [], [bs "GOT_NAME"]⟩,
  ⟨176766215657394220023131649121079715600028712845149613167976862675764171415500884913513778, [.eps 10536087492549074889608123846118433213235659172841883490561059872851620400875840307, .eps 10536087492549074889608123846118433213235659172841883490561059872851620400875840308, .cls 10 176766215657394220023131649121079715600028712845149613167976862675764171415500884913513778, .cls 2 176766215657394220023131649121079715600028712845149613167976862675764171415500884913513777, .eps 2697238398092563171739679704606318902588328748247522173583631327450014822624220116340], []⟩,
  ⟨10536087492549074889608123846118433213235659172841883490561059872851620400875840307, [], [bs "COPY_TO_NAME"]⟩,
  ⟨10536087492549074889608123846118433213235659172841883490561059872851620400875840308, [], [bs "GOT_NAME_TRAILING_SPACE"]⟩,
  ⟨2697238398092563171739679704606318902588328748247522173583631327450014822624220116340, [.eps 146217586546163942484823414865147589620170953295689768172148437300], []⟩,
  ⟨146217586546163942484823414865147589620170953295689768172148437301, [.cls 21 146217586546163942484823414865147589620170953295689768172148437302], []⟩,
  ⟨146217586546163942484823414865147589620170953295689768172148437302, [.cls 22 146217586546163942484823414865147589620170953295689768172148437303], []⟩,
  ⟨146217586546163942484823414865147589620170953295689768172148437303, [.eps 45252151208292920325921702174996407193607350488358300971002098318016151862582378987458029934], []⟩,
  ⟨146217586546163942484823414865147589620170953295689768172148437304, [.cls 23 2697238398092563171739679704606318902588328748247522173583636196320124855181118760308], []⟩,
  ⟨45252151208292920325921702174996407193607350488358300971002098318016151862582378987458029934, [.eps 11584550709322987603435955756799080241563481725019725048576537169412134876821089020789256058228, .cls 8 45252151208292920325921702174996407193607350488358300971002098318016151862582378987458029934], []⟩,
  ⟨11584550709322987603435955756799080241563481725019725048576537169412134876821089020789256058228, [.eps 146217586546163942484823414865147589620170953295689768172148437304], []⟩,
  ⟨146217586546163942484823414865147589620170953295689768172148437305, [.eps 10536087492549074889608123846118433213235659172841883490561059872851620400926189934], []⟩,
  ⟨45252151208292920325921702174996407193607350488358300971002098318016151862582378987474807150, [.eps 11584550709322987603435955756799080241563481725019725048576537169412134876821089020793551025524, .cls 8 45252151208292920325921702174996407193607350488358300971002098318016151862582378987474807150], []⟩,
  ⟨11584550709322987603435955756799080241563481725019725048576537169412134876821089020793551025524, [.eps 146217586546163942484823414865147589620170953295689768172148437305], []⟩,
  ⟨146217586546163942484823414865147589620170953295689768172148437552, [.cls 24 146217586546163942484823414865147589620170953295689768172148437553], []⟩,
  ⟨10536087492549074889608123846118433213235659172841883490561059872851620400926189934, [.cls 2 176766215657394220023131649121079715600028712845149613167976862675764171416345309843645745], []⟩,
  ⟨176766215657394220023131649121079715600028712845149613167976862675764171416345309843645745, [.eps 10536087492549074889608123846118433213235659172841883490561059872851620400926171953, .eps 10536087492549074889608123846118433213235659172841883490561059872851620400926171954, .cls 2 176766215657394220023131649121079715600028712845149613167976862675764171416345309843645745, .cls 9 176766215657394220023131649121079715600028712845149613167976862675764171416345309843645746, .eps 2697238398092563171739679704606318902588328748247522173583631327450014822637105018228], []⟩,
  ⟨10536087492549074889608123846118433213235659172841883490561059872851620400926171953, [], [bs "COPY_TO_NAME"]⟩,
  ⟨10536087492549074889608123846118433213235659172841883490561059872851620400926171954, [], [bs "GOT_NAME"]⟩,
  ⟨176766215657394220023131649121079715600028712845149613167976862675764171416345309843645746, [.eps 10536087492549074889608123846118433213235659172841883490561059872851620400926171955, .eps 10536087492549074889608123846118433213235659172841883490561059872851620400926171956, .cls 10 176766215657394220023131649121079715600028712845149613167976862675764171416345309843645746, .cls 2 176766215657394220023131649121079715600028712845149613167976862675764171416345309843645745, .eps 2697238398092563171739679704606318902588328748247522173583631327450014822637105018228], []⟩,
  ⟨10536087492549074889608123846118433213235659172841883490561059872851620400926171955, [], [bs "COPY_TO_NAME"]⟩,
  ⟨10536087492549074889608123846118433213235659172841883490561059872851620400926171956, [], [bs "GOT_NAME_TRAILING_SPACE"]⟩,
  ⟨2697238398092563171739679704606318902588328748247522173583631327450014822637105018228, [.eps 146217586546163942484823414865147589620170953295689768172148437552], []⟩,
  ⟨146217586546163942484823414865147589620170953295689768172148437553, [.cls 25 146217586546163942484823414865147589620170953295689768172148437554], []⟩,
  ⟨146217586546163942484823414865147589620170953295689768172148437554, [.cls 26 146217586546163942484823414865147589620170953295689768172148437555], []⟩,
  ⟨146217586546163942484823414865147589620170953295689768172148437555, [.eps 45252151208292920325921702174996407193607350488358300971002098318016151862582378987508361582], []⟩,
  ⟨146217586546163942484823414865147589620170953295689768172148437556, [.cls 27 12737348207461333518789336884724474695781103082714466313868366003332769064239954861451035879302386104038757], []⟩,
  ⟨45252151208292920325921702174996407193607350488358300971002098318016151862582378987508361582, [.eps 11584550709322987603435955756799080241563481725019725048576537169412134876821089020802140960116, .cls 8 45252151208292920325921702174996407193607350488358300971002098318016151862582378987508361582], []⟩,
  ⟨11584550709322987603435955756799080241563481725019725048576537169412134876821089020802140960116, [.eps 146217586546163942484823414865147589620170953295689768172148437556], []⟩,
  ⟨10536087492549074889608123846118433213235659172841883490561078891875499840528802156, [.eps 45252151208292920325921702174996407193607350488358300971002098318016151862582378991752997230, .eps 45252151208292920325921702174996407193607350488358300971002098318016151862582378991702665582, .eps 45252151208292920325921702174996407193607350488358300971002098318016151862582378987525138798], []⟩,
  ⟨146217586546163942484823414865147589620170953295689768172148437557, [.eps 690493029911696171965358004379217639062612159551365676437410573613142123291228599380334], []⟩,
  ⟨45252151208292920325921702174996407193607350488358300971002098318016151862582378987525138798, [.eps 11584550709322987603435955756799080241563481725019725048576537169412134876821089020806435927412, .cls 8 45252151208292920325921702174996407193607350488358300971002098318016151862582378987525138798], []⟩,
  ⟨11584550709322987603435955756799080241563481725019725048576537169412134876821089020806435927412, [.eps 146217586546163942484823414865147589620170953295689768172148437557], []⟩,
  ⟨146217586546163942484823414865147589620170953295689768172148437558, [.eps 45252151208292920325921702174996407193607350488358300971002098318016151862582378987558693230], []⟩,
  ⟨690493029911696171965358004379217639062612159551365676437410573613142123291228599380334, [.cls 11 176766215657394220023131649121079715600028712845149613167977106844964383562554521441891888], []⟩,
  ⟨176766215657394220023131649121079715600028712845149613167977106844964383562554521441891888, [.eps 3260761141110101380810070242489465522119962389174903376350300314877147507991500382952304667518327484276697454, .cls 1 176766215657394220023131649121079715600028712845149613167977106844964383562554521441891889, .cls 0 176766215657394220023131649121079715600028712845149613167977106844964383562554521441891889], []⟩,
  ⟨3260761141110101380810070242489465522119962389174903376350300314877147507991500382952304667518327484276697454, [.cls 6 3260761141110101380810070242489465522119962389174903376350300314877147507991500382952304667518327484276679474, .cls 4 3260761141110101380810070242489465522119962389174903376350300314877147507991500382952304667518327484276679473], []⟩,
  ⟨3260761141110101380810070242489465522119962389174903376350300314877147507991500382952304667518327484276679473, [.cls 5 834754852124185953487377982077303173662710371628775264345676880608549762045824098035789994884691835974834943348], []⟩,
  ⟨3260761141110101380810070242489465522119962389174903376350300314877147507991500382952304667518327484276679474, [.cls 7 834754852124185953487377982077303173662710371628775264345676880608549762045824098035789994884691835974834943348], []⟩,
  ⟨834754852124185953487377982077303173662710371628775264345676880608549762045824098035789994884691835974834943348, [.eps 176766215657394220023131649121079715600028712845149613167977106844964383562554521441891889], []⟩,
  ⟨176766215657394220023131649121079715600028712845149613167977106844964383562554521441891889, [.eps 690493029911696171965358004379217639062612159551365676437410573613142123291228599362353, .eps 3260761141110101380810070242489465522119962389174903376350300314877147507991500382952304667518327484293474670, .cls 1 176766215657394220023131649121079715600028712845149613167977106844964383562554521441891889, .cls 0 176766215657394220023131649121079715600028712845149613167977106844964383562554521441891889, .eps 176766215657394220023131649121079715600028712845149613167977106844964383562554521441891890], []⟩,
  ⟨690493029911696171965358004379217639062612159551365676437410573613142123291228599362353, [], [bs "COPY_TO_VALUE"]⟩,
  ⟨3260761141110101380810070242489465522119962389174903376350300314877147507991500382952304667518327484293474670, [.cls 6 3260761141110101380810070242489465522119962389174903376350300314877147507991500382952304667518327484293456690, .cls 4 3260761141110101380810070242489465522119962389174903376350300314877147507991500382952304667518327484293456689], []⟩,
  ⟨3260761141110101380810070242489465522119962389174903376350300314877147507991500382952304667518327484293456689, [.cls 5 834754852124185953487377982077303173662710371628775264345676880608549762045824098035789994884691835979129910644], []⟩,
  ⟨3260761141110101380810070242489465522119962389174903376350300314877147507991500382952304667518327484293456690, [.cls 7 834754852124185953487377982077303173662710371628775264345676880608549762045824098035789994884691835979129910644], []⟩,
  ⟨834754852124185953487377982077303173662710371628775264345676880608549762045824098035789994884691835979129910644, [.eps 176766215657394220023131649121079715600028712845149613167977106844964383562554521441891889], []⟩,
  ⟨176766215657394220023131649121079715600028712845149613167977106844964383562554521441891890, [.cls 12 176766215657394220023131649121079715600028712845149613167977106844964383562554521441760628], []⟩,
  ⟨176766215657394220023131649121079715600028712845149613167977106844964383562554521441760628, [.eps 146217586546163942484823414865147589620170953295689768172148437558], []⟩,
  ⟨45252151208292920325921702174996407193607350488358300971002098318016151862582378987558693230, [.eps 11584550709322987603435955756799080241563481725019725048576537169412134876821089020815025862004, .cls 8 45252151208292920325921702174996407193607350488358300971002098318016151862582378987558693230], []⟩,
  ⟨11584550709322987603435955756799080241563481725019725048576537169412134876821089020815025862004, [.eps 10536087492549074889608123846118433213235659172841883490561064964655781783855260012], []⟩,
  ⟨146217586546163942484823414865147589620170953295689768172148437559, [.eps 2697238398092563171739679704606318902588328748247522173583640998839296479043861244270], []⟩,
  ⟨45252151208292920325921702174996407193607350488358300971002098318016151862582378991702665582, [.eps 11584550709322987603435955756799080241563481725019725048576537169412134876821089021875882784116, .cls 8 45252151208292920325921702174996407193607350488358300971002098318016151862582378991702665582], []⟩,
  ⟨11584550709322987603435955756799080241563481725019725048576537169412134876821089021875882784116, [.eps 146217586546163942484823414865147589620170953295689768172148437559], []⟩,
  ⟨146217586546163942484823414865147589620170953295689768172148437560, [.eps 45252151208292920325921702174996407193607350488358300971002098318016151862582378991736220014], []⟩,
  ⟨2697238398092563171739679704606318902588328748247522173583640998839296479043861244270, [.cls 0 2697238398092563171739679704606318902588328748247522173583640998839296479043861247537], []⟩,
  ⟨2697238398092563171739679704606318902588328748247522173583640998839296479043861247537, [.eps 2697238398092563171739679704606318902588328748247522173583640998839296479043861226289, .eps 690493029911696171965358004379217639062612159551365676437412095702859898635228478928244, .cls 0 2697238398092563171739679704606318902588328748247522173583640998839296479043861247537], []⟩,
  ⟨2697238398092563171739679704606318902588328748247522173583640998839296479043861226289, [], [bs "COPY_TO_VALUE"]⟩,
  ⟨690493029911696171965358004379217639062612159551365676437412095702859898635228478928244, [.eps 146217586546163942484823414865147589620170953295689768172148437560], []⟩,
  ⟨45252151208292920325921702174996407193607350488358300971002098318016151862582378991736220014, [.eps 11584550709322987603435955756799080241563481725019725048576537169412134876821089021884472718708, .cls 8 45252151208292920325921702174996407193607350488358300971002098318016151862582378991736220014], []⟩,
  ⟨11584550709322987603435955756799080241563481725019725048576537169412134876821089021884472718708, [.eps 10536087492549074889608123846118433213235659172841883490561064964655781783855260012], []⟩,
  ⟨146217586546163942484823414865147589620170953295689768172148437561, [.eps 146217586546163942484823414865147589620170953295689768172148437808], []⟩,
  ⟨45252151208292920325921702174996407193607350488358300971002098318016151862582378991752997230, [.eps 11584550709322987603435955756799080241563481725019725048576537169412134876821089021888767686004, .cls 8 45252151208292920325921702174996407193607350488358300971002098318016151862582378991752997230], []⟩,
  ⟨11584550709322987603435955756799080241563481725019725048576537169412134876821089021888767686004, [.eps 146217586546163942484823414865147589620170953295689768172148437561], []⟩,
  ⟨146217586546163942484823414865147589620170953295689768172148437808, [.token 0 10536087492549074889608123846118433213235659172841883490561064964655781783855260012], []⟩,
  ⟨690493029911696171965358004379217639062612159551365676437410866257951964910993313527141, [.eps 45252151208292920325921702174996407193607350488358300971002098318016151862582378991820106094, .eps 45252151208292920325921702174996407193607350488358300971002098318016151862582378991769774446], []⟩,
  ⟨146217586546163942484823414865147589620170953295689768172148437809, [.eps 690493029911696171965358004379217639062612159551365676437410573613142123291232844015982], []⟩,
  ⟨45252151208292920325921702174996407193607350488358300971002098318016151862582378991769774446, [.eps 11584550709322987603435955756799080241563481725019725048576537169412134876821089021893062653300, .cls 8 45252151208292920325921702174996407193607350488358300971002098318016151862582378991769774446], []⟩,
  ⟨11584550709322987603435955756799080241563481725019725048576537169412134876821089021893062653300, [.eps 146217586546163942484823414865147589620170953295689768172148437809], []⟩,
  ⟨146217586546163942484823414865147589620170953295689768172148437810, [.eps 45252151208292920325921702174996407193607350488358300971002098318016151862582378991803328878], []⟩,
  ⟨690493029911696171965358004379217639062612159551365676437410573613142123291232844015982, [.cls 11 176766215657394220023131649121079715600028712845149613167977106844964383562555608068617776], []⟩,
  ⟨176766215657394220023131649121079715600028712845149613167977106844964383562555608068617776, [.eps 3260761141110101380810070242489465522119962389174903376350300314877147507991520427677420776395738650896132462, .cls 1 176766215657394220023131649121079715600028712845149613167977106844964383562555608068617777, .cls 0 176766215657394220023131649121079715600028712845149613167977106844964383562555608068617777], []⟩,
  ⟨3260761141110101380810070242489465522119962389174903376350300314877147507991520427677420776395738650896132462, [.cls 6 3260761141110101380810070242489465522119962389174903376350300314877147507991520427677420776395738650896114482, .cls 4 3260761141110101380810070242489465522119962389174903376350300314877147507991520427677420776395738650896114481], []⟩,
  ⟨3260761141110101380810070242489465522119962389174903376350300314877147507991520427677420776395738650896114481, [.cls 5 834754852124185953487377982077303173662710371628775264345676880608549762045829229485419718757309094629410305396], []⟩,
  ⟨3260761141110101380810070242489465522119962389174903376350300314877147507991520427677420776395738650896114482, [.cls 7 834754852124185953487377982077303173662710371628775264345676880608549762045829229485419718757309094629410305396], []⟩,
  ⟨834754852124185953487377982077303173662710371628775264345676880608549762045829229485419718757309094629410305396, [.eps 176766215657394220023131649121079715600028712845149613167977106844964383562555608068617777], []⟩,
  ⟨176766215657394220023131649121079715600028712845149613167977106844964383562555608068617777, [.eps 690493029911696171965358004379217639062612159551365676437410573613142123291232843998001, .eps 3260761141110101380810070242489465522119962389174903376350300314877147507991520427677420776395738650912909678, .cls 1 176766215657394220023131649121079715600028712845149613167977106844964383562555608068617777, .cls 0 176766215657394220023131649121079715600028712845149613167977106844964383562555608068617777, .eps 176766215657394220023131649121079715600028712845149613167977106844964383562555608068617778], []⟩,
  ⟨690493029911696171965358004379217639062612159551365676437410573613142123291232843998001, [], [bs "COPY_TO_VALUE"]⟩,
  ⟨3260761141110101380810070242489465522119962389174903376350300314877147507991520427677420776395738650912909678, [.cls 6 3260761141110101380810070242489465522119962389174903376350300314877147507991520427677420776395738650912891698, .cls 4 3260761141110101380810070242489465522119962389174903376350300314877147507991520427677420776395738650912891697], []⟩,
  ⟨3260761141110101380810070242489465522119962389174903376350300314877147507991520427677420776395738650912891697, [.cls 5 834754852124185953487377982077303173662710371628775264345676880608549762045829229485419718757309094633705272692], []⟩,
  ⟨3260761141110101380810070242489465522119962389174903376350300314877147507991520427677420776395738650912891698, [.cls 7 834754852124185953487377982077303173662710371628775264345676880608549762045829229485419718757309094633705272692], []⟩,
  ⟨834754852124185953487377982077303173662710371628775264345676880608549762045829229485419718757309094633705272692, [.eps 176766215657394220023131649121079715600028712845149613167977106844964383562555608068617777], []⟩,
  ⟨176766215657394220023131649121079715600028712845149613167977106844964383562555608068617778, [.cls 12 176766215657394220023131649121079715600028712845149613167977106844964383562555608068486516], []⟩,
  ⟨176766215657394220023131649121079715600028712845149613167977106844964383562555608068486516, [.eps 146217586546163942484823414865147589620170953295689768172148437810], []⟩,
  ⟨45252151208292920325921702174996407193607350488358300971002098318016151862582378991803328878, [.eps 11584550709322987603435955756799080241563481725019725048576537169412134876821089021901652587892, .cls 8 45252151208292920325921702174996407193607350488358300971002098318016151862582378991803328878], []⟩,
  ⟨11584550709322987603435955756799080241563481725019725048576537169412134876821089021901652587892, [.eps 690493029911696171965358004379217639062612159551365676437409953523680522348836055577957], []⟩,
  ⟨146217586546163942484823414865147589620170953295689768172148437811, [.eps 2697238398092563171739679704606318902588328748247522173583640998839296479043978684782], []⟩,
  ⟨45252151208292920325921702174996407193607350488358300971002098318016151862582378991820106094, [.eps 11584550709322987603435955756799080241563481725019725048576537169412134876821089021905947555188, .cls 8 45252151208292920325921702174996407193607350488358300971002098318016151862582378991820106094], []⟩,
  ⟨11584550709322987603435955756799080241563481725019725048576537169412134876821089021905947555188, [.eps 146217586546163942484823414865147589620170953295689768172148437811], []⟩,
  ⟨146217586546163942484823414865147589620170953295689768172148437812, [.eps 45252151208292920325921702174996407193607350488358300971002098318016151862582378991853660526], []⟩,
  ⟨2697238398092563171739679704606318902588328748247522173583640998839296479043978684782, [.cls 0 2697238398092563171739679704606318902588328748247522173583640998839296479043978688049], []⟩,
  ⟨2697238398092563171739679704606318902588328748247522173583640998839296479043978688049, [.eps 2697238398092563171739679704606318902588328748247522173583640998839296479043978666801, .eps 690493029911696171965358004379217639062612159551365676437412095702859898635258543699316, .cls 0 2697238398092563171739679704606318902588328748247522173583640998839296479043978688049], []⟩,
  ⟨2697238398092563171739679704606318902588328748247522173583640998839296479043978666801, [], [bs "COPY_TO_VALUE"]⟩,
  ⟨690493029911696171965358004379217639062612159551365676437412095702859898635258543699316, [.eps 146217586546163942484823414865147589620170953295689768172148437812], []⟩,
  ⟨45252151208292920325921702174996407193607350488358300971002098318016151862582378991853660526, [.eps 11584550709322987603435955756799080241563481725019725048576537169412134876821089021914537489780, .cls 8 45252151208292920325921702174996407193607350488358300971002098318016151862582378991853660526], []⟩,
  ⟨11584550709322987603435955756799080241563481725019725048576537169412134876821089021914537489780, [.eps 690493029911696171965358004379217639062612159551365676437409953523680522348836055577957], []⟩,
  ⟨2697238398092563171739679704606318902588328748247522173583636196320124855181118760308, [.eps 45252151208292920325921702174996407193607350488358300971002098318016151862582378996047964526, .eps 45252151208292920325921702174996407193607350488358300971002098318016151862582378995997632878], []⟩,
  ⟨146217586546163942484823414865147589620170953295689768172148437813, [.cls 28 146217586546163942484823414865147589620170953295689768172148437814], []⟩,
  ⟨45252151208292920325921702174996407193607350488358300971002098318016151862582378995997632878, [.eps 11584550709322987603435955756799080241563481725019725048576537169412134876821089022975394411892, .cls 8 45252151208292920325921702174996407193607350488358300971002098318016151862582378995997632878], []⟩,
  ⟨11584550709322987603435955756799080241563481725019725048576537169412134876821089022975394411892, [.eps 146217586546163942484823414865147589620170953295689768172148437813], []⟩,
  ⟨146217586546163942484823414865147589620170953295689768172148437814, [.cls 29 146217586546163942484823414865147589620170953295689768172148437815], []⟩,
  ⟨146217586546163942484823414865147589620170953295689768172148437815, [.eps 2697238398092563171739679704606318902588328748247522173583640998839296479048156211566], []⟩,
  ⟨146217586546163942484823414865147589620170953295689768172148437816, [.eps 45252151208292920325921702174996407193607350488358300971002098318016151862582378996031187310], []⟩,
  ⟨2697238398092563171739679704606318902588328748247522173583640998839296479048156211566, [.cls 0 2697238398092563171739679704606318902588328748247522173583640998839296479048156214833], []⟩,
  ⟨2697238398092563171739679704606318902588328748247522173583640998839296479048156214833, [.eps 2697238398092563171739679704606318902588328748247522173583640998839296479048156193585, .eps 690493029911696171965358004379217639062612159551365676437412095702859898636327990556020, .cls 0 2697238398092563171739679704606318902588328748247522173583640998839296479048156214833], []⟩,
  ⟨2697238398092563171739679704606318902588328748247522173583640998839296479048156193585, [], [bs "COPY_TO_VALUE"]⟩,
  ⟨690493029911696171965358004379217639062612159551365676437412095702859898636327990556020, [.eps 146217586546163942484823414865147589620170953295689768172148437816], []⟩,
  ⟨45252151208292920325921702174996407193607350488358300971002098318016151862582378996031187310, [.eps 11584550709322987603435955756799080241563481725019725048576537169412134876821089022983984346484, .cls 8 45252151208292920325921702174996407193607350488358300971002098318016151862582378996031187310], []⟩,
  ⟨11584550709322987603435955756799080241563481725019725048576537169412134876821089022983984346484, [.eps 2697238398092563171739679704606318902588328748247522173583632630951877032672691971444], []⟩,
  ⟨146217586546163942484823414865147589620170953295689768172148437817, [.eps 2697238398092563171739679704606318902588328748247522173583630156322316612100684671342], []⟩,
  ⟨45252151208292920325921702174996407193607350488358300971002098318016151862582378996047964526, [.eps 11584550709322987603435955756799080241563481725019725048576537169412134876821089022988279313780, .cls 8 45252151208292920325921702174996407193607350488358300971002098318016151862582378996047964526], []⟩,
  ⟨11584550709322987603435955756799080241563481725019725048576537169412134876821089022988279313780, [.eps 146217586546163942484823414865147589620170953295689768172148437817], []⟩,
  ⟨146217586546163942484823414865147589620170953295689768172148438064, [.cls 30 146217586546163942484823414865147589620170953295689768172148438065], []⟩,
  ⟨2697238398092563171739679704606318902588328748247522173583630156322316612100684671342, [.cls 3 11584550709322987603435955756799080241563481725019725048576526642363717483929958527000822903345, .cls 2 11584550709322987603435955756799080241563481725019725048576526642363717483929958527000822903345], []⟩,
  ⟨11584550709322987603435955756799080241563481725019725048576526642363717483929958527000822903345, [.eps 2697238398092563171739679704606318902588328748247522173583630156322316612100684653361, .cls 3 11584550709322987603435955756799080241563481725019725048576526642363717483929958527000822903345, .cls 2 11584550709322987603435955756799080241563481725019725048576526642363717483929958527000822903345, .eps 690493029911696171965358004379217639062612159551365676437409320018513052697775276258676], []⟩,
  ⟨2697238398092563171739679704606318902588328748247522173583630156322316612100684653361, [], [bs "COPY_TO_MINOR"]⟩,
  ⟨690493029911696171965358004379217639062612159551365676437409320018513052697775276258676, [.eps 146217586546163942484823414865147589620170953295689768172148438064], []⟩,
  ⟨146217586546163942484823414865147589620170953295689768172148438065, [.cls 31 146217586546163942484823414865147589620170953295689768172148438066], []⟩,
  ⟨146217586546163942484823414865147589620170953295689768172148438066, [.eps 2697238398092563171739679704606318902588328748247522173583640998839296479048223320430], []⟩,
  ⟨146217586546163942484823414865147589620170953295689768172148438067, [.eps 45252151208292920325921702174996407193607350488358300971002098318016151862582378996098296174], []⟩,
  ⟨2697238398092563171739679704606318902588328748247522173583640998839296479048223320430, [.cls 0 2697238398092563171739679704606318902588328748247522173583640998839296479048223323697], []⟩,
  ⟨2697238398092563171739679704606318902588328748247522173583640998839296479048223323697, [.eps 2697238398092563171739679704606318902588328748247522173583640998839296479048223302449, .eps 690493029911696171965358004379217639062612159551365676437412095702859898636345170425204, .cls 0 2697238398092563171739679704606318902588328748247522173583640998839296479048223323697], []⟩,
  ⟨2697238398092563171739679704606318902588328748247522173583640998839296479048223302449, [], [bs "COPY_TO_VALUE"]⟩,
  ⟨690493029911696171965358004379217639062612159551365676437412095702859898636345170425204, [.eps 146217586546163942484823414865147589620170953295689768172148438067], []⟩,
  ⟨45252151208292920325921702174996407193607350488358300971002098318016151862582378996098296174, [.eps 11584550709322987603435955756799080241563481725019725048576537169412134876821089023001164215668, .cls 8 45252151208292920325921702174996407193607350488358300971002098318016151862582378996098296174], []⟩,
  ⟨11584550709322987603435955756799080241563481725019725048576537169412134876821089023001164215668, [.eps 2697238398092563171739679704606318902588328748247522173583632630951877032672691971444], []⟩,
  ⟨12737348207461333518789336884724474695781103082714466313868366003332769064239954861451035879302386104038757, [.eps 45252151208292920325921702174996407193607350488358300971002098318016151862582378996115073390], []⟩,
  ⟨146217586546163942484823414865147589620170953295689768172148438068, [.eps 2697238398092563171739679704606318902588328748247522173583640998839296479048273652078], []⟩,
  ⟨45252151208292920325921702174996407193607350488358300971002098318016151862582378996115073390, [.eps 11584550709322987603435955756799080241563481725019725048576537169412134876821089023005459182964, .cls 8 45252151208292920325921702174996407193607350488358300971002098318016151862582378996115073390], []⟩,
  ⟨11584550709322987603435955756799080241563481725019725048576537169412134876821089023005459182964, [.eps 146217586546163942484823414865147589620170953295689768172148438068], []⟩,
  ⟨146217586546163942484823414865147589620170953295689768172148438069, [.eps 45252151208292920325921702174996407193607350488358300971002098318016151862582378996148627822], []⟩,
  ⟨2697238398092563171739679704606318902588328748247522173583640998839296479048273652078, [.cls 0 2697238398092563171739679704606318902588328748247522173583640998839296479048273655345], []⟩,
  ⟨2697238398092563171739679704606318902588328748247522173583640998839296479048273655345, [.eps 2697238398092563171739679704606318902588328748247522173583640998839296479048273634097, .eps 690493029911696171965358004379217639062612159551365676437412095702859898636358055327092, .cls 0 2697238398092563171739679704606318902588328748247522173583640998839296479048273655345], []⟩,
  ⟨2697238398092563171739679704606318902588328748247522173583640998839296479048273634097, [], [bs "COPY_TO_VALUE"]⟩,
  ⟨690493029911696171965358004379217639062612159551365676437412095702859898636358055327092, [.eps 146217586546163942484823414865147589620170953295689768172148438069], []⟩,
  ⟨45252151208292920325921702174996407193607350488358300971002098318016151862582378996148627822, [.eps 11584550709322987603435955756799080241563481725019725048576537169412134876821089023014049117556, .cls 8 45252151208292920325921702174996407193607350488358300971002098318016151862582378996148627822], []⟩,
  ⟨11584550709322987603435955756799080241563481725019725048576537169412134876821089023014049117556, [.eps 12737348207461333518789336884724474695781103082714466313868349166357256459551243248630363929291981750957413], []⟩,
  ⟨10536087492549074889608123846118433213235659172841883490561064964655781783855260012, [.eps 146217586546163942484823414865147589620170953295689768172153435508, .eps 146217586546163942484823414865147589620170953295689768172148438070], []⟩,
  ⟨146217586546163942484823414865147589620170953295689768172148438070, [], [bs "GOT_NAMEVALUE"]⟩,
  ⟨690493029911696171965358004379217639062612159551365676437409953523680522348836055577957, [.eps 146217586546163942484823414865147589620170953295689768172153435508, .eps 146217586546163942484823414865147589620170953295689768172148438071], []⟩,
  ⟨146217586546163942484823414865147589620170953295689768172148438071, [], [bs "GOT_NAMEVALUE_CONT"]⟩,
  ⟨2697238398092563171739679704606318902588328748247522173583632630951877032672691971444, [.eps 146217586546163942484823414865147589620170953295689768172153435508, .eps 146217586546163942484823414865147589620170953295689768172148438072], []⟩,
  ⟨146217586546163942484823414865147589620170953295689768172148438072, [], [bs "GOT_NAMEVALUE_CSET"]⟩,
  ⟨12737348207461333518789336884724474695781103082714466313868349166357256459551243248630363929291981750957413, [.eps 146217586546163942484823414865147589620170953295689768172153435508, .eps 146217586546163942484823414865147589620170953295689768172148438073], []⟩,
  ⟨146217586546163942484823414865147589620170953295689768172148438073, [], [bs "GOT_NAMEVALUE_CCONT"]⟩,
  ⟨146217586546163942484823414865147589620170953295689768172153435508, [.eps 1845525402912616395719345819167454580], []⟩,
  ⟨519469219803752730814577684502167150597779217082734, [.cls 2 8715247305999037175466025761672710753683471045329182090545], []⟩,
  ⟨8715247305999037175466025761672710753683471045329182090545, [.eps 132984120269760699088531887232554790553031479573575028, .cls 9 8715247305999037175466025761672710753683471045329182090546, .cls 2 8715247305999037175466025761672710753683471045329182090545, .eps 519469219803752730814577684502167150597779217064754, .eps 519469219803752730814577684502167150597779217064753], []⟩,
  ⟨519469219803752730814577684502167150597779217064753, [], [bs "COPY_TO_NAME"]⟩,
  ⟨519469219803752730814577684502167150597779217064754, [], [bs "GOT_NAME"]⟩,
  ⟨8715247305999037175466025761672710753683471045329182090546, [.eps 132984120269760699088531887232554790553031479573575028, .cls 2 8715247305999037175466025761672710753683471045329182090545, .cls 10 8715247305999037175466025761672710753683471045329182090546, .eps 519469219803752730814577684502167150597779217064756, .eps 519469219803752730814577684502167150597779217064755], []⟩,
  ⟨519469219803752730814577684502167150597779217064755, [], [bs "COPY_TO_NAME"]⟩,
  ⟨519469219803752730814577684502167150597779217064756, [], [bs "GOT_NAME_TRAILING_SPACE"]⟩,
  ⟨132984120269760699088531887232554790553031479573575028, [.eps 1845525402912616395719345819167454580], []⟩,
  ⟨146217586546163942484823414865142397088718001932759277673225546094, [.eps 2697238398092563171739679704606223117289521467245943303594015060671040439731746662766], []⟩,
  ⟨2697238398092563171739679704606223117289521467245943303594015060671040439731746662766, [.cls 2 45252151208292920325921702174994800182959636192622115928150366980131150402114495839768241457], []⟩,
  ⟨45252151208292920325921702174994800182959636192622115928150366980131150402114495839768241457, [.cls 2 45252151208292920325921702174994800182959636192622115928150366980131150402114495839768241457, .eps 690493029911696171965358004379193118026117495614961485720067855531786352571327146063220], []⟩,
  ⟨690493029911696171965358004379193118026117495614961485720067855531786352571327146063220, [.eps 37431702155817969276114794205476453654711808494786375084345739603823], []⟩,
  ⟨37431702155817969276114794205476453654711808494786375084345739603823, [.cls 32 37431702155817969276114794205476453654711808494786375084345739338098], []⟩,
  ⟨37431702155817969276114794205476453654711808494786375084345739338098, [.eps 2697238398092563171739679704606223117289521467245943303594015060818902622697591564654], []⟩,
  ⟨2697238398092563171739679704606223117289521467245943303594015060818902622697591564654, [.cls 3 11584550709322987603435955756798668846837666865311261677606493947548637743094783072532824027697, .cls 2 11584550709322987603435955756798668846837666865311261677606493947548637743094783072532824027697], []⟩,
  ⟨11584550709322987603435955756798668846837666865311261677606493947548637743094783072532824027697, [.eps 2697238398092563171739679704606223117289521467245943303594015060818902622697591546673, .cls 3 11584550709322987603435955756798668846837666865311261677606493947548637743094783072532824027697, .cls 2 11584550709322987603435955756798668846837666865311261677606493947548637743094783072532824027697, .eps 690493029911696171965358004379193118026117495614961485720067855569639071410583440946548], []⟩,
  ⟨2697238398092563171739679704606223117289521467245943303594015060818902622697591546673, [], [bs "COPY_TO_MINOR"]⟩,
  ⟨690493029911696171965358004379193118026117495614961485720067855569639071410583440946548, [.eps 37431702155817969276114794205476453654711808494786375084345740195188], []⟩,
  ⟨37431702155817969276114794205476453654711808494786375084345740195188, [.eps 146217586546163942484823414865142397088718001932759277673225528113, .eps 1845525402912616395719345819167454580], []⟩,
  ⟨146217586546163942484823414865142397088718001932759277673225528113, [], [bs "GOT_MAJORMINOR"]⟩,
  ⟨1845525402912616395719345819167454580, [.eps 74546], []⟩, ⟨74547, [.token 0 6164935730], []⟩,
  ⟨29111538763117749496338782775662, [.eps 7452553923358143871062728390964596, .cls 8 29111538763117749496338782775662], []⟩,
  ⟨7452553923358143871062728390964596, [.eps 74547], []⟩], 4, 4⟩

/-- `main` after its second transition. -/
def nvpMain2 : Block := ⟨6130067822, [⟨92526, [.eps 29111538763117749496338799552878, .eps 29111538763117749496338749221230], []⟩,
  ⟨74545, [.eps 7209083605127407795778694606121326], []⟩,
  ⟨29111538763117749496338749221230, [.eps 7452553923358143871062719801030004, .cls 8 29111538763117749496338749221230], []⟩,
  ⟨7452553923358143871062719801030004, [.eps 74545], []⟩, ⟨74546, [.eps 29111538763117749496338782775662], []⟩,
  ⟨7209083605127407795778694606121326, [.eps 571162447445952900331341464316982771953792786311288156922472814, .eps 519469219803752730814577684502167150597779217082734, .eps 146217586546163942484823414865142397088718001932759277673225546094], []⟩,
  ⟨571162447445952900331341464316982771953792786311288156922472814, [.eps 45252151208292920325921702174996407193607350488358300971002098318016151862582378987474807150, .eps 45252151208292920325921702174996407193607350488358300971002098318016151862582378987424475502, .eps 176766215657394220023131649121079715600028712845149613167976946554750593213212418036885870, .eps 176766215657394220023131649121079715600028712845149613167976946554750593213212417969777006, .eps 176766215657394220023131649121079715600028712845149613167976946554750593213212417919445358], []⟩,
  ⟨571162447445952900331341464316982771953792786311288156922454833, [.eps 41156591767769823787531733773900129739201793643913607385004140128326642207451502], []⟩,
  ⟨176766215657394220023131649121079715600028712845149613167976946554750593213212417919445358, [.eps 45252151208292920325921702174996407193607350488358300971002098318016151862582378987378406772, .cls 8 176766215657394220023131649121079715600028712845149613167976946554750593213212417919445358], []⟩,
  ⟨45252151208292920325921702174996407193607350488358300971002098318016151862582378987378406772, [.eps 571162447445952900331341464316982771953792786311288156922454833], []⟩,
  ⟨571162447445952900331341464316982771953792786311288156922454834, [.eps 176766215657394220023131649121079715600028712845149613167976946554750593213212417952999790], []⟩,
  ⟨41156591767769823787531733773900129739201793643913607385004140128326642207451502, [.cls 2 690493029911696171965358004379217639062612159551365676437409619827203794869151922480433], []⟩,
  ⟨690493029911696171965358004379217639062612159551365676437409619827203794869151922480433, [.eps 41156591767769823787531733773900129739201793643913607385004140128326642207433521, .eps 41156591767769823787531733773900129739201793643913607385004140128326642207433522, .cls 2 690493029911696171965358004379217639062612159551365676437409619827203794869151922480433, .cls 9 690493029911696171965358004379217639062612159551365676437409619827203794869151922480434, .eps 10536087492549074889608123846118433213235659172841883490561059872851620405107979636], []⟩,
  ⟨41156591767769823787531733773900129739201793643913607385004140128326642207433521, [], [bs "COPY_TO_NAME"]⟩,
  ⟨41156591767769823787531733773900129739201793643913607385004140128326642207433522, [], [bs "GOT_NAME"]⟩,
  ⟨690493029911696171965358004379217639062612159551365676437409619827203794869151922480434, [.eps 41156591767769823787531733773900129739201793643913607385004140128326642207433523, .eps 41156591767769823787531733773900129739201793643913607385004140128326642207433524, .cls 10 690493029911696171965358004379217639062612159551365676437409619827203794869151922480434, .cls 2 690493029911696171965358004379217639062612159551365676437409619827203794869151922480433, .eps 10536087492549074889608123846118433213235659172841883490561059872851620405107979636], []⟩,
  ⟨41156591767769823787531733773900129739201793643913607385004140128326642207433523, [], [bs "COPY_TO_NAME"]⟩,
  ⟨41156591767769823787531733773900129739201793643913607385004140128326642207433524, [], [bs "GOT_NAME_TRAILING_SPACE"]⟩,
  ⟨10536087492549074889608123846118433213235659172841883490561059872851620405107979636, [.eps 571162447445952900331341464316982771953792786311288156922454834], []⟩,
  ⟨571162447445952900331341464316982771953792786311288156922454835, [.cls 15 10536087492549074889608123846118433213235659172841883490561078891875499840528802156], []⟩,
  ⟨176766215657394220023131649121079715600028712845149613167976946554750593213212417952999790, [.eps 45252151208292920325921702174996407193607350488358300971002098318016151862582378995968341364, .cls 8 176766215657394220023131649121079715600028712845149613167976946554750593213212417952999790], []⟩,
  ⟨45252151208292920325921702174996407193607350488358300971002098318016151862582378995968341364, [.eps 571162447445952900331341464316982771953792786311288156922454835], []⟩,
  ⟨571162447445952900331341464316982771953792786311288156922454836, [.eps 41156591767769823787531733773900129739201793643913607385004140128326642257783150], []⟩,
  ⟨176766215657394220023131649121079715600028712845149613167976946554750593213212417969777006, [.eps 45252151208292920325921702174996407193607350488358300971002098318016151862582379000263308660, .cls 8 176766215657394220023131649121079715600028712845149613167976946554750593213212417969777006], []⟩,
  ⟨45252151208292920325921702174996407193607350488358300971002098318016151862582379000263308660, [.eps 571162447445952900331341464316982771953792786311288156922454836], []⟩,
  ⟨571162447445952900331341464316982771953792786311288156922454837, [.cls 16 571162447445952900331341464316982771953792786311288156922454838], []⟩,
  ⟨41156591767769823787531733773900129739201793643913607385004140128326642257783150, [.cls 2 690493029911696171965358004379217639062612159551365676437409619827203795713576852612401], []⟩,
  ⟨690493029911696171965358004379217639062612159551365676437409619827203795713576852612401, [.eps 41156591767769823787531733773900129739201793643913607385004140128326642257765169, .eps 41156591767769823787531733773900129739201793643913607385004140128326642257765170, .cls 2 690493029911696171965358004379217639062612159551365676437409619827203795713576852612401, .cls 9 690493029911696171965358004379217639062612159551365676437409619827203795713576852612402, .eps 10536087492549074889608123846118433213235659172841883490561059872851620417992881524], []⟩,
  ⟨41156591767769823787531733773900129739201793643913607385004140128326642257765169, [], [bs "COPY_TO_NAME"]⟩,
  ⟨41156591767769823787531733773900129739201793643913607385004140128326642257765170, [], [bs "GOT_NAME"]⟩,
  ⟨690493029911696171965358004379217639062612159551365676437409619827203795713576852612402, [.eps 41156591767769823787531733773900129739201793643913607385004140128326642257765171, .eps 41156591767769823787531733773900129739201793643913607385004140128326642257765172, .cls 10 690493029911696171965358004379217639062612159551365676437409619827203795713576852612402, .cls 2 690493029911696171965358004379217639062612159551365676437409619827203795713576852612401, .eps 10536087492549074889608123846118433213235659172841883490561059872851620417992881524], []⟩,
  ⟨41156591767769823787531733773900129739201793643913607385004140128326642257765171, [], [bs "COPY_TO_NAME"]⟩,
  ⟨41156591767769823787531733773900129739201793643913607385004140128326642257765172, [], [bs "GOT_NAME_TRAILING_SPACE"]⟩,
  ⟨10536087492549074889608123846118433213235659172841883490561059872851620417992881524, [.eps 571162447445952900331341464316982771953792786311288156922454837], []⟩,
  ⟨571162447445952900331341464316982771953792786311288156922454838, [.eps 2697238398092563171739679704606318902588328748247522173583619275860381177200115607918], []⟩,
  ⟨571162447445952900331341464316982771953792786311288156922454839, [.eps 176766215657394220023131649121079715600028712845149613167976946554750593213212418020108654], []⟩,
  ⟨2697238398092563171739679704606318902588328748247522173583619275860381177200115607918, [.cls 13 690493029911696171965358004379217639062612159551365676437406534620257581363229596022132, .cls 14 2697238398092563171739679704606318902588328748247522173583619275860381177200115607918], []⟩,
  ⟨690493029911696171965358004379217639062612159551365676437406534620257581363229596022132, [.eps 571162447445952900331341464316982771953792786311288156922454839], []⟩,
  ⟨571162447445952900331341464316982771953792786311288156922454840, [.cls 17 690493029911696171965358004379217639062612159551365676437410866257951964910993313527141], []⟩,
  ⟨176766215657394220023131649121079715600028712845149613167976946554750593213212418020108654, [.eps 45252151208292920325921702174996407193607350488358300971002098318016151862582379013148210548, .cls 8 176766215657394220023131649121079715600028712845149613167976946554750593213212418020108654], []⟩,
  ⟨45252151208292920325921702174996407193607350488358300971002098318016151862582379013148210548, [.eps 571162447445952900331341464316982771953792786311288156922454840], []⟩,
  ⟨571162447445952900331341464316982771953792786311288156922454841, [.eps 41156591767769823787531733773900129739201793643913607385004140128326642324892014], []⟩,
  ⟨176766215657394220023131649121079715600028712845149613167976946554750593213212418036885870, [.eps 45252151208292920325921702174996407193607350488358300971002098318016151862582379017443177844, .cls 8 176766215657394220023131649121079715600028712845149613167976946554750593213212418036885870], []⟩,
  ⟨45252151208292920325921702174996407193607350488358300971002098318016151862582379017443177844, [.eps 571162447445952900331341464316982771953792786311288156922454841], []⟩,
  ⟨146217586546163942484823414865147589620170953295689768172148437296, [.cls 18 146217586546163942484823414865147589620170953295689768172148437297], []⟩,
  ⟨41156591767769823787531733773900129739201793643913607385004140128326642324892014, [.cls 2 690493029911696171965358004379217639062612159551365676437409619827203796839476759455025], []⟩,
  ⟨690493029911696171965358004379217639062612159551365676437409619827203796839476759455025, [.eps 41156591767769823787531733773900129739201793643913607385004140128326642324874033, .eps 41156591767769823787531733773900129739201793643913607385004140128326642324874034, .cls 2 690493029911696171965358004379217639062612159551365676437409619827203796839476759455025, .cls 9 690493029911696171965358004379217639062612159551365676437409619827203796839476759455026, .eps 10536087492549074889608123846118433213235659172841883490561059872851620435172750708], []⟩,
  ⟨41156591767769823787531733773900129739201793643913607385004140128326642324874033, [], [bs "COPY_TO_NAME"]⟩,
  ⟨41156591767769823787531733773900129739201793643913607385004140128326642324874034, [], [bs "GOT_NAME"]⟩,
  ⟨690493029911696171965358004379217639062612159551365676437409619827203796839476759455026, [.eps 41156591767769823787531733773900129739201793643913607385004140128326642324874035, .eps 41156591767769823787531733773900129739201793643913607385004140128326642324874036, .cls 10 690493029911696171965358004379217639062612159551365676437409619827203796839476759455026, .cls 2 690493029911696171965358004379217639062612159551365676437409619827203796839476759455025, .eps 10536087492549074889608123846118433213235659172841883490561059872851620435172750708], []⟩,
  ⟨41156591767769823787531733773900129739201793643913607385004140128326642324874035, [], [bs "COPY_TO_NAME"]⟩,
  ⟨41156591767769823787531733773900129739201793643913607385004140128326642324874036, [], [bs "GOT_NAME_TRAILING_SPACE"]⟩,
  ⟨10536087492549074889608123846118433213235659172841883490561059872851620435172750708, [.eps 146217586546163942484823414865147589620170953295689768172148437296], []⟩,
  ⟨146217586546163942484823414865147589620170953295689768172148437297, [.eps 45252151208292920325921702174996407193607350488358300971002098318016151862582378987407698286], []⟩,
  ⟨146217586546163942484823414865147589620170953295689768172148437298, [.cls 19 2697238398092563171739679704606318902588328748247522173583636196320124855181118760308], []⟩,
  ⟨45252151208292920325921702174996407193607350488358300971002098318016151862582378987407698286, [.eps 11584550709322987603435955756799080241563481725019725048576537169412134876821089020776371156340, .cls 8 45252151208292920325921702174996407193607350488358300971002098318016151862582378987407698286], []⟩,
  ⟨11584550709322987603435955756799080241563481725019725048576537169412134876821089020776371156340, [.eps 146217586546163942484823414865147589620170953295689768172148437298], []⟩,
  ⟨146217586546163942484823414865147589620170953295689768172148437299, [.eps 10536087492549074889608123846118433213235659172841883490561059872851620400875858286], []⟩,
  ⟨45252151208292920325921702174996407193607350488358300971002098318016151862582378987424475502, [.eps 11584550709322987603435955756799080241563481725019725048576537169412134876821089020780666123636, .cls 8 45252151208292920325921702174996407193607350488358300971002098318016151862582378987424475502], []⟩,
  ⟨11584550709322987603435955756799080241563481725019725048576537169412134876821089020780666123636, [.eps 146217586546163942484823414865147589620170953295689768172148437299], []⟩,
  ⟨146217586546163942484823414865147589620170953295689768172148437300, [.cls 20 146217586546163942484823414865147589620170953295689768172148437301], []⟩,
  ⟨10536087492549074889608123846118433213235659172841883490561059872851620400875858286, [.cls 2 176766215657394220023131649121079715600028712845149613167976862675764171415500884913513777], []⟩,
  ⟨176766215657394220023131649121079715600028712845149613167976862675764171415500884913513777, [.eps 10536087492549074889608123846118433213235659172841883490561059872851620400875840305, .eps 10536087492549074889608123846118433213235659172841883490561059872851620400875840306, .cls 2 176766215657394220023131649121079715600028712845149613167976862675764171415500884913513777, .cls 9 176766215657394220023131649121079715600028712845149613167976862675764171415500884913513778, .eps 2697238398092563171739679704606318902588328748247522173583631327450014822624220116340], []⟩,
  ⟨10536087492549074889608123846118433213235659172841883490561059872851620400875840305, [], [bs "COPY_TO_NAME"]⟩,
  ⟨10536087492549074889608123846118433213235659172841883490561059872851620400875840306, [], [bs "GOT_NAME"]⟩,
  ⟨176766215657394220023131649121079715600028712845149613167976862675764171415500884913513778, [.eps 10536087492549074889608123846118433213235659172841883490561059872851620400875840307, .eps 10536087492549074889608123846118433213235659172841883490561059872851620400875840308, .cls 10 176766215657394220023131649121079715600028712845149613167976862675764171415500884913513778, .cls 2 176766215657394220023131649121079715600028712845149613167976862675764171415500884913513777, .eps 2697238398092563171739679704606318902588328748247522173583631327450014822624220116340], []⟩,
  ⟨10536087492549074889608123846118433213235659172841883490561059872851620400875840307, [], [bs "COPY_TO_NAME"]⟩,
  ⟨10536087492549074889608123846118433213235659172841883490561059872851620400875840308, [], [bs "GOT_NAME_TRAILING_SPACE"]⟩,
  ⟨2697238398092563171739679704606318902588328748247522173583631327450014822624220116340, [.eps 146217586546163942484823414865147589620170953295689768172148437300], []⟩,
  ⟨146217586546163942484823414865147589620170953295689768172148437301, [.cls 21 146217586546163942484823414865147589620170953295689768172148437302], []⟩,
  ⟨146217586546163942484823414865147589620170953295689768172148437302, [.cls 22 146217586546163942484823414865147589620170953295689768172148437303], []⟩,
  ⟨146217586546163942484823414865147589620170953295689768172148437303, [.eps 45252151208292920325921702174996407193607350488358300971002098318016151862582378987458029934], []⟩,
  ⟨146217586546163942484823414865147589620170953295689768172148437304, [.cls 23 2697238398092563171739679704606318902588328748247522173583636196320124855181118760308], []⟩,
  ⟨45252151208292920325921702174996407193607350488358300971002098318016151862582378987458029934, [.eps 11584550709322987603435955756799080241563481725019725048576537169412134876821089020789256058228, .cls 8 45252151208292920325921702174996407193607350488358300971002098318016151862582378987458029934], []⟩,
  ⟨11584550709322987603435955756799080241563481725019725048576537169412134876821089020789256058228, [.eps 146217586546163942484823414865147589620170953295689768172148437304], []⟩,
  ⟨146217586546163942484823414865147589620170953295689768172148437305, [.eps 10536087492549074889608123846118433213235659172841883490561059872851620400926189934], []⟩,
  ⟨45252151208292920325921702174996407193607350488358300971002098318016151862582378987474807150, [.eps 11584550709322987603435955756799080241563481725019725048576537169412134876821089020793551025524, .cls 8 45252151208292920325921702174996407193607350488358300971002098318016151862582378987474807150], []⟩,
  ⟨11584550709322987603435955756799080241563481725019725048576537169412134876821089020793551025524, [.eps 146217586546163942484823414865147589620170953295689768172148437305], []⟩,
  ⟨146217586546163942484823414865147589620170953295689768172148437552, [.cls 24 146217586546163942484823414865147589620170953295689768172148437553], []⟩,
  ⟨10536087492549074889608123846118433213235659172841883490561059872851620400926189934, [.cls 2 176766215657394220023131649121079715600028712845149613167976862675764171416345309843645745], []⟩,
  ⟨176766215657394220023131649121079715600028712845149613167976862675764171416345309843645745, [.eps 10536087492549074889608123846118433213235659172841883490561059872851620400926171953, .eps 10536087492549074889608123846118433213235659172841883490561059872851620400926171954, .cls 2 176766215657394220023131649121079715600028712845149613167976862675764171416345309843645745, .cls 9 176766215657394220023131649121079715600028712845149613167976862675764171416345309843645746, .eps 2697238398092563171739679704606318902588328748247522173583631327450014822637105018228], []⟩,
  ⟨10536087492549074889608123846118433213235659172841883490561059872851620400926171953, [], [bs "COPY_TO_NAME"]⟩,
  ⟨10536087492549074889608123846118433213235659172841883490561059872851620400926171954, [], [bs "GOT_NAME"]⟩,
  ⟨176766215657394220023131649121079715600028712845149613167976862675764171416345309843645746, [.eps 10536087492549074889608123846118433213235659172841883490561059872851620400926171955, .eps 10536087492549074889608123846118433213235659172841883490561059872851620400926171956, .cls 10 176766215657394220023131649121079715600028712845149613167976862675764171416345309843645746, .cls 2 176766215657394220023131649121079715600028712845149613167976862675764171416345309843645745, .eps 2697238398092563171739679704606318902588328748247522173583631327450014822637105018228], []⟩,
  ⟨10536087492549074889608123846118433213235659172841883490561059872851620400926171955, [], [bs "COPY_TO_NAME"]⟩,
  ⟨10536087492549074889608123846118433213235659172841883490561059872851620400926171956, [], [bs "GOT_NAME_TRAILING_SPACE"]⟩,
  ⟨2697238398092563171739679704606318902588328748247522173583631327450014822637105018228, [.eps 146217586546163942484823414865147589620170953295689768172148437552], []⟩,
  ⟨146217586546163942484823414865147589620170953295689768172148437553, [.cls 25 146217586546163942484823414865147589620170953295689768172148437554], []⟩,
  ⟨146217586546163942484823414865147589620170953295689768172148437554, [.cls 26 146217586546163942484823414865147589620170953295689768172148437555], []⟩,
  ⟨146217586546163942484823414865147589620170953295689768172148437555, [.eps 45252151208292920325921702174996407193607350488358300971002098318016151862582378987508361582], []⟩,
  ⟨146217586546163942484823414865147589620170953295689768172148437556, [.cls 27 12737348207461333518789336884724474695781103082714466313868366003332769064239954861451035879302386104038757], []⟩,
  ⟨45252151208292920325921702174996407193607350488358300971002098318016151862582378987508361582, [.eps 11584550709322987603435955756799080241563481725019725048576537169412134876821089020802140960116, .cls 8 45252151208292920325921702174996407193607350488358300971002098318016151862582378987508361582], []⟩,
  ⟨11584550709322987603435955756799080241563481725019725048576537169412134876821089020802140960116, [.eps 146217586546163942484823414865147589620170953295689768172148437556], []⟩,
  ⟨10536087492549074889608123846118433213235659172841883490561078891875499840528802156, [.eps 45252151208292920325921702174996407193607350488358300971002098318016151862582378991752997230, .eps 45252151208292920325921702174996407193607350488358300971002098318016151862582378991702665582, .eps 45252151208292920325921702174996407193607350488358300971002098318016151862582378987525138798], []⟩,
  ⟨146217586546163942484823414865147589620170953295689768172148437557, [.eps 690493029911696171965358004379217639062612159551365676437410573613142123291228599380334], []⟩,
  ⟨45252151208292920325921702174996407193607350488358300971002098318016151862582378987525138798, [.eps 11584550709322987603435955756799080241563481725019725048576537169412134876821089020806435927412, .cls 8 45252151208292920325921702174996407193607350488358300971002098318016151862582378987525138798], []⟩,
  ⟨11584550709322987603435955756799080241563481725019725048576537169412134876821089020806435927412, [.eps 146217586546163942484823414865147589620170953295689768172148437557], []⟩,
  ⟨146217586546163942484823414865147589620170953295689768172148437558, [.eps 45252151208292920325921702174996407193607350488358300971002098318016151862582378987558693230], []⟩,
  ⟨690493029911696171965358004379217639062612159551365676437410573613142123291228599380334, [.cls 11 176766215657394220023131649121079715600028712845149613167977106844964383562554521441891888], []⟩,
  ⟨176766215657394220023131649121079715600028712845149613167977106844964383562554521441891888, [.eps 3260761141110101380810070242489465522119962389174903376350300314877147507991500382952304667518327484276697454, .cls 1 176766215657394220023131649121079715600028712845149613167977106844964383562554521441891889, .cls 0 176766215657394220023131649121079715600028712845149613167977106844964383562554521441891889], []⟩,
  ⟨3260761141110101380810070242489465522119962389174903376350300314877147507991500382952304667518327484276697454, [.cls 6 3260761141110101380810070242489465522119962389174903376350300314877147507991500382952304667518327484276679474, .cls 4 3260761141110101380810070242489465522119962389174903376350300314877147507991500382952304667518327484276679473], []⟩,
  ⟨3260761141110101380810070242489465522119962389174903376350300314877147507991500382952304667518327484276679473, [.cls 5 834754852124185953487377982077303173662710371628775264345676880608549762045824098035789994884691835974834943348], []⟩,
  ⟨3260761141110101380810070242489465522119962389174903376350300314877147507991500382952304667518327484276679474, [.cls 7 834754852124185953487377982077303173662710371628775264345676880608549762045824098035789994884691835974834943348], []⟩,
  ⟨834754852124185953487377982077303173662710371628775264345676880608549762045824098035789994884691835974834943348, [.eps 176766215657394220023131649121079715600028712845149613167977106844964383562554521441891889], []⟩,
  ⟨176766215657394220023131649121079715600028712845149613167977106844964383562554521441891889, [.eps 690493029911696171965358004379217639062612159551365676437410573613142123291228599362353, .eps 3260761141110101380810070242489465522119962389174903376350300314877147507991500382952304667518327484293474670, .cls 1 176766215657394220023131649121079715600028712845149613167977106844964383562554521441891889, .cls 0 176766215657394220023131649121079715600028712845149613167977106844964383562554521441891889, .eps 176766215657394220023131649121079715600028712845149613167977106844964383562554521441891890], []⟩,
  ⟨690493029911696171965358004379217639062612159551365676437410573613142123291228599362353, [], [bs "COPY_TO_VALUE"]⟩,
  ⟨3260761141110101380810070242489465522119962389174903376350300314877147507991500382952304667518327484293474670, [.cls 6 3260761141110101380810070242489465522119962389174903376350300314877147507991500382952304667518327484293456690, .cls 4 3260761141110101380810070242489465522119962389174903376350300314877147507991500382952304667518327484293456689], []⟩,
  ⟨3260761141110101380810070242489465522119962389174903376350300314877147507991500382952304667518327484293456689, [.cls 5 834754852124185953487377982077303173662710371628775264345676880608549762045824098035789994884691835979129910644], []⟩,
  ⟨3260761141110101380810070242489465522119962389174903376350300314877147507991500382952304667518327484293456690, [.cls 7 834754852124185953487377982077303173662710371628775264345676880608549762045824098035789994884691835979129910644], []⟩,
  ⟨834754852124185953487377982077303173662710371628775264345676880608549762045824098035789994884691835979129910644, [.eps 176766215657394220023131649121079715600028712845149613167977106844964383562554521441891889], []⟩,
  ⟨176766215657394220023131649121079715600028712845149613167977106844964383562554521441891890, [.cls 12 176766215657394220023131649121079715600028712845149613167977106844964383562554521441760628], []⟩,
  ⟨176766215657394220023131649121079715600028712845149613167977106844964383562554521441760628, [.eps 146217586546163942484823414865147589620170953295689768172148437558], []⟩,
  ⟨45252151208292920325921702174996407193607350488358300971002098318016151862582378987558693230, [.eps 11584550709322987603435955756799080241563481725019725048576537169412134876821089020815025862004, .cls 8 45252151208292920325921702174996407193607350488358300971002098318016151862582378987558693230], []⟩,
  ⟨11584550709322987603435955756799080241563481725019725048576537169412134876821089020815025862004, [.eps 10536087492549074889608123846118433213235659172841883490561064964655781783855260012], []⟩,
  ⟨146217586546163942484823414865147589620170953295689768172148437559, [.eps 2697238398092563171739679704606318902588328748247522173583640998839296479043861244270], []⟩,
  ⟨45252151208292920325921702174996407193607350488358300971002098318016151862582378991702665582, [.eps 11584550709322987603435955756799080241563481725019725048576537169412134876821089021875882784116, .cls 8 45252151208292920325921702174996407193607350488358300971002098318016151862582378991702665582], []⟩,
  ⟨11584550709322987603435955756799080241563481725019725048576537169412134876821089021875882784116, [.eps 146217586546163942484823414865147589620170953295689768172148437559], []⟩,
  ⟨146217586546163942484823414865147589620170953295689768172148437560, [.eps 45252151208292920325921702174996407193607350488358300971002098318016151862582378991736220014], []⟩,
  ⟨2697238398092563171739679704606318902588328748247522173583640998839296479043861244270, [.cls 0 2697238398092563171739679704606318902588328748247522173583640998839296479043861247537], []⟩,
  ⟨2697238398092563171739679704606318902588328748247522173583640998839296479043861247537, [.eps 2697238398092563171739679704606318902588328748247522173583640998839296479043861226289, .eps 690493029911696171965358004379217639062612159551365676437412095702859898635228478928244, .cls 0 2697238398092563171739679704606318902588328748247522173583640998839296479043861247537], []⟩,
  ⟨2697238398092563171739679704606318902588328748247522173583640998839296479043861226289, [], [bs "COPY_TO_VALUE"]⟩,
  ⟨690493029911696171965358004379217639062612159551365676437412095702859898635228478928244, [.eps 146217586546163942484823414865147589620170953295689768172148437560], []⟩,
  ⟨45252151208292920325921702174996407193607350488358300971002098318016151862582378991736220014, [.eps 11584550709322987603435955756799080241563481725019725048576537169412134876821089021884472718708, .cls 8 45252151208292920325921702174996407193607350488358300971002098318016151862582378991736220014], []⟩,
  ⟨11584550709322987603435955756799080241563481725019725048576537169412134876821089021884472718708, [.eps 10536087492549074889608123846118433213235659172841883490561064964655781783855260012], []⟩,
  ⟨146217586546163942484823414865147589620170953295689768172148437561, [.eps 146217586546163942484823414865147589620170953295689768172148437808], []⟩,
  ⟨45252151208292920325921702174996407193607350488358300971002098318016151862582378991752997230, [.eps 11584550709322987603435955756799080241563481725019725048576537169412134876821089021888767686004, .cls 8 45252151208292920325921702174996407193607350488358300971002098318016151862582378991752997230], []⟩,
  ⟨11584550709322987603435955756799080241563481725019725048576537169412134876821089021888767686004, [.eps 146217586546163942484823414865147589620170953295689768172148437561], []⟩,
  ⟨146217586546163942484823414865147589620170953295689768172148437808, [.token 0 10536087492549074889608123846118433213235659172841883490561064964655781783855260012], []⟩,
  ⟨690493029911696171965358004379217639062612159551365676437410866257951964910993313527141, [.eps 45252151208292920325921702174996407193607350488358300971002098318016151862582378991820106094, .eps 45252151208292920325921702174996407193607350488358300971002098318016151862582378991769774446], []⟩,
  ⟨146217586546163942484823414865147589620170953295689768172148437809, [.eps 690493029911696171965358004379217639062612159551365676437410573613142123291232844015982], []⟩,
  ⟨45252151208292920325921702174996407193607350488358300971002098318016151862582378991769774446, [.eps 11584550709322987603435955756799080241563481725019725048576537169412134876821089021893062653300, .cls 8 45252151208292920325921702174996407193607350488358300971002098318016151862582378991769774446], []⟩,
  ⟨11584550709322987603435955756799080241563481725019725048576537169412134876821089021893062653300, [.eps 146217586546163942484823414865147589620170953295689768172148437809], []⟩,
  ⟨146217586546163942484823414865147589620170953295689768172148437810, [.eps 45252151208292920325921702174996407193607350488358300971002098318016151862582378991803328878], []⟩,
  ⟨690493029911696171965358004379217639062612159551365676437410573613142123291232844015982, [.cls 11 176766215657394220023131649121079715600028712845149613167977106844964383562555608068617776], []⟩,
  ⟨176766215657394220023131649121079715600028712845149613167977106844964383562555608068617776, [.eps 3260761141110101380810070242489465522119962389174903376350300314877147507991520427677420776395738650896132462, .cls 1 176766215657394220023131649121079715600028712845149613167977106844964383562555608068617777, .cls 0 176766215657394220023131649121079715600028712845149613167977106844964383562555608068617777], []⟩,
  ⟨3260761141110101380810070242489465522119962389174903376350300314877147507991520427677420776395738650896132462, [.cls 6 3260761141110101380810070242489465522119962389174903376350300314877147507991520427677420776395738650896114482, .cls 4 3260761141110101380810070242489465522119962389174903376350300314877147507991520427677420776395738650896114481], []⟩,
  ⟨3260761141110101380810070242489465522119962389174903376350300314877147507991520427677420776395738650896114481, [.cls 5 834754852124185953487377982077303173662710371628775264345676880608549762045829229485419718757309094629410305396], []⟩,
  ⟨3260761141110101380810070242489465522119962389174903376350300314877147507991520427677420776395738650896114482, [.cls 7 834754852124185953487377982077303173662710371628775264345676880608549762045829229485419718757309094629410305396], []⟩,
  ⟨834754852124185953487377982077303173662710371628775264345676880608549762045829229485419718757309094629410305396, [.eps 176766215657394220023131649121079715600028712845149613167977106844964383562555608068617777], []⟩,
  ⟨176766215657394220023131649121079715600028712845149613167977106844964383562555608068617777, [.eps 690493029911696171965358004379217639062612159551365676437410573613142123291232843998001, .eps 3260761141110101380810070242489465522119962389174903376350300314877147507991520427677420776395738650912909678, .cls 1 176766215657394220023131649121079715600028712845149613167977106844964383562555608068617777, .cls 0 176766215657394220023131649121079715600028712845149613167977106844964383562555608068617777, .eps 176766215657394220023131649121079715600028712845149613167977106844964383562555608068617778], []⟩,
  ⟨690493029911696171965358004379217639062612159551365676437410573613142123291232843998001, [], [bs "COPY_TO_VALUE"]⟩,
  ⟨3260761141110101380810070242489465522119962389174903376350300314877147507991520427677420776395738650912909678, [.cls 6 3260761141110101380810070242489465522119962389174903376350300314877147507991520427677420776395738650912891698, .cls 4 3260761141110101380810070242489465522119962389174903376350300314877147507991520427677420776395738650912891697], []⟩,
  ⟨3260761141110101380810070242489465522119962389174903376350300314877147507991520427677420776395738650912891697, [.cls 5 834754852124185953487377982077303173662710371628775264345676880608549762045829229485419718757309094633705272692], []⟩,
  ⟨3260761141110101380810070242489465522119962389174903376350300314877147507991520427677420776395738650912891698, [.cls 7 834754852124185953487377982077303173662710371628775264345676880608549762045829229485419718757309094633705272692], []⟩,
  ⟨834754852124185953487377982077303173662710371628775264345676880608549762045829229485419718757309094633705272692, [.eps 176766215657394220023131649121079715600028712845149613167977106844964383562555608068617777], []⟩,
  ⟨176766215657394220023131649121079715600028712845149613167977106844964383562555608068617778, [.cls 12 176766215657394220023131649121079715600028712845149613167977106844964383562555608068486516], []⟩,
  ⟨176766215657394220023131649121079715600028712845149613167977106844964383562555608068486516, [.eps 146217586546163942484823414865147589620170953295689768172148437810], []⟩,
  ⟨45252151208292920325921702174996407193607350488358300971002098318016151862582378991803328878, [.eps 11584550709322987603435955756799080241563481725019725048576537169412134876821089021901652587892, .cls 8 45252151208292920325921702174996407193607350488358300971002098318016151862582378991803328878], []⟩,
  ⟨11584550709322987603435955756799080241563481725019725048576537169412134876821089021901652587892, [.eps 690493029911696171965358004379217639062612159551365676437409953523680522348836055577957], []⟩,
  ⟨146217586546163942484823414865147589620170953295689768172148437811, [.eps 2697238398092563171739679704606318902588328748247522173583640998839296479043978684782], []⟩,
  ⟨45252151208292920325921702174996407193607350488358300971002098318016151862582378991820106094, [.eps 11584550709322987603435955756799080241563481725019725048576537169412134876821089021905947555188, .cls 8 45252151208292920325921702174996407193607350488358300971002098318016151862582378991820106094], []⟩,
  ⟨11584550709322987603435955756799080241563481725019725048576537169412134876821089021905947555188, [.eps 146217586546163942484823414865147589620170953295689768172148437811], []⟩,
  ⟨146217586546163942484823414865147589620170953295689768172148437812, [.eps 45252151208292920325921702174996407193607350488358300971002098318016151862582378991853660526], []⟩,
  ⟨2697238398092563171739679704606318902588328748247522173583640998839296479043978684782, [.cls 0 2697238398092563171739679704606318902588328748247522173583640998839296479043978688049], []⟩,
  ⟨2697238398092563171739679704606318902588328748247522173583640998839296479043978688049, [.eps 2697238398092563171739679704606318902588328748247522173583640998839296479043978666801, .eps 690493029911696171965358004379217639062612159551365676437412095702859898635258543699316, .cls 0 2697238398092563171739679704606318902588328748247522173583640998839296479043978688049], []⟩,
  ⟨2697238398092563171739679704606318902588328748247522173583640998839296479043978666801, [], [bs "COPY_TO_VALUE"]⟩,
  ⟨690493029911696171965358004379217639062612159551365676437412095702859898635258543699316, [.eps 146217586546163942484823414865147589620170953295689768172148437812], []⟩,
  ⟨45252151208292920325921702174996407193607350488358300971002098318016151862582378991853660526, [.eps 11584550709322987603435955756799080241563481725019725048576537169412134876821089021914537489780, .cls 8 45252151208292920325921702174996407193607350488358300971002098318016151862582378991853660526], []⟩,
  ⟨11584550709322987603435955756799080241563481725019725048576537169412134876821089021914537489780, [.eps 690493029911696171965358004379217639062612159551365676437409953523680522348836055577957], []⟩,
  ⟨2697238398092563171739679704606318902588328748247522173583636196320124855181118760308, [.eps 45252151208292920325921702174996407193607350488358300971002098318016151862582378996047964526, .eps 45252151208292920325921702174996407193607350488358300971002098318016151862582378995997632878], []⟩,
  ⟨146217586546163942484823414865147589620170953295689768172148437813, [.cls 28 146217586546163942484823414865147589620170953295689768172148437814], []⟩,
  ⟨45252151208292920325921702174996407193607350488358300971002098318016151862582378995997632878, [.eps 11584550709322987603435955756799080241563481725019725048576537169412134876821089022975394411892, .cls 8 45252151208292920325921702174996407193607350488358300971002098318016151862582378995997632878], []⟩,
  ⟨11584550709322987603435955756799080241563481725019725048576537169412134876821089022975394411892, [.eps 146217586546163942484823414865147589620170953295689768172148437813], []⟩,
  ⟨146217586546163942484823414865147589620170953295689768172148437814, [.cls 29 146217586546163942484823414865147589620170953295689768172148437815], []⟩,
  ⟨146217586546163942484823414865147589620170953295689768172148437815, [.eps 2697238398092563171739679704606318902588328748247522173583640998839296479048156211566], []⟩,
  ⟨146217586546163942484823414865147589620170953295689768172148437816, [.eps 45252151208292920325921702174996407193607350488358300971002098318016151862582378996031187310], []⟩,
  ⟨2697238398092563171739679704606318902588328748247522173583640998839296479048156211566, [.cls 0 2697238398092563171739679704606318902588328748247522173583640998839296479048156214833], []⟩,
  ⟨2697238398092563171739679704606318902588328748247522173583640998839296479048156214833, [.eps 2697238398092563171739679704606318902588328748247522173583640998839296479048156193585, .eps 690493029911696171965358004379217639062612159551365676437412095702859898636327990556020, .cls 0 2697238398092563171739679704606318902588328748247522173583640998839296479048156214833], []⟩,
  ⟨2697238398092563171739679704606318902588328748247522173583640998839296479048156193585, [], [bs "COPY_TO_VALUE"]⟩,
  ⟨690493029911696171965358004379217639062612159551365676437412095702859898636327990556020, [.eps 146217586546163942484823414865147589620170953295689768172148437816], []⟩,
  ⟨45252151208292920325921702174996407193607350488358300971002098318016151862582378996031187310, [.eps 11584550709322987603435955756799080241563481725019725048576537169412134876821089022983984346484, .cls 8 45252151208292920325921702174996407193607350488358300971002098318016151862582378996031187310], []⟩,
  ⟨11584550709322987603435955756799080241563481725019725048576537169412134876821089022983984346484, [.eps 2697238398092563171739679704606318902588328748247522173583632630951877032672691971444], []⟩,
  ⟨146217586546163942484823414865147589620170953295689768172148437817, [.eps 2697238398092563171739679704606318902588328748247522173583630156322316612100684671342], []⟩,
  ⟨45252151208292920325921702174996407193607350488358300971002098318016151862582378996047964526, [.eps 11584550709322987603435955756799080241563481725019725048576537169412134876821089022988279313780, .cls 8 45252151208292920325921702174996407193607350488358300971002098318016151862582378996047964526], []⟩,
  ⟨11584550709322987603435955756799080241563481725019725048576537169412134876821089022988279313780, [.eps 146217586546163942484823414865147589620170953295689768172148437817], []⟩,
  ⟨146217586546163942484823414865147589620170953295689768172148438064, [.cls 30 146217586546163942484823414865147589620170953295689768172148438065], []⟩,
  ⟨2697238398092563171739679704606318902588328748247522173583630156322316612100684671342, [.cls 3 11584550709322987603435955756799080241563481725019725048576526642363717483929958527000822903345, .cls 2 11584550709322987603435955756799080241563481725019725048576526642363717483929958527000822903345], []⟩,
  ⟨11584550709322987603435955756799080241563481725019725048576526642363717483929958527000822903345, [.eps 2697238398092563171739679704606318902588328748247522173583630156322316612100684653361, .cls 3 11584550709322987603435955756799080241563481725019725048576526642363717483929958527000822903345, .cls 2 11584550709322987603435955756799080241563481725019725048576526642363717483929958527000822903345, .eps 690493029911696171965358004379217639062612159551365676437409320018513052697775276258676], []⟩,
  ⟨2697238398092563171739679704606318902588328748247522173583630156322316612100684653361, [], [bs "COPY_TO_MINOR"]⟩,
  ⟨690493029911696171965358004379217639062612159551365676437409320018513052697775276258676, [.eps 146217586546163942484823414865147589620170953295689768172148438064], []⟩,
  ⟨146217586546163942484823414865147589620170953295689768172148438065, [.cls 31 146217586546163942484823414865147589620170953295689768172148438066], []⟩,
  ⟨146217586546163942484823414865147589620170953295689768172148438066, [.eps 2697238398092563171739679704606318902588328748247522173583640998839296479048223320430], []⟩,
  ⟨146217586546163942484823414865147589620170953295689768172148438067, [.eps 45252151208292920325921702174996407193607350488358300971002098318016151862582378996098296174], []⟩,
  ⟨2697238398092563171739679704606318902588328748247522173583640998839296479048223320430, [.cls 0 2697238398092563171739679704606318902588328748247522173583640998839296479048223323697], []⟩,
  ⟨2697238398092563171739679704606318902588328748247522173583640998839296479048223323697, [.eps 2697238398092563171739679704606318902588328748247522173583640998839296479048223302449, .eps 690493029911696171965358004379217639062612159551365676437412095702859898636345170425204, .cls 0 2697238398092563171739679704606318902588328748247522173583640998839296479048223323697], []⟩,
  ⟨2697238398092563171739679704606318902588328748247522173583640998839296479048223302449, [], [bs "COPY_TO_VALUE"]⟩,
  ⟨690493029911696171965358004379217639062612159551365676437412095702859898636345170425204, [.eps 146217586546163942484823414865147589620170953295689768172148438067], []⟩,
  ⟨45252151208292920325921702174996407193607350488358300971002098318016151862582378996098296174, [.eps 11584550709322987603435955756799080241563481725019725048576537169412134876821089023001164215668, .cls 8 45252151208292920325921702174996407193607350488358300971002098318016151862582378996098296174], []⟩,
  ⟨11584550709322987603435955756799080241563481725019725048576537169412134876821089023001164215668, [.eps 2697238398092563171739679704606318902588328748247522173583632630951877032672691971444], []⟩,
  ⟨12737348207461333518789336884724474695781103082714466313868366003332769064239954861451035879302386104038757, [.eps 45252151208292920325921702174996407193607350488358300971002098318016151862582378996115073390], []⟩,
  ⟨146217586546163942484823414865147589620170953295689768172148438068, [.eps 2697238398092563171739679704606318902588328748247522173583640998839296479048273652078], []⟩,
  ⟨45252151208292920325921702174996407193607350488358300971002098318016151862582378996115073390, [.eps 11584550709322987603435955756799080241563481725019725048576537169412134876821089023005459182964, .cls 8 45252151208292920325921702174996407193607350488358300971002098318016151862582378996115073390], []⟩,
  ⟨11584550709322987603435955756799080241563481725019725048576537169412134876821089023005459182964, [.eps 146217586546163942484823414865147589620170953295689768172148438068], []⟩,
  ⟨146217586546163942484823414865147589620170953295689768172148438069, [.eps 45252151208292920325921702174996407193607350488358300971002098318016151862582378996148627822], []⟩,
  ⟨2697238398092563171739679704606318902588328748247522173583640998839296479048273652078, [.cls 0 2697238398092563171739679704606318902588328748247522173583640998839296479048273655345], []⟩,
  ⟨2697238398092563171739679704606318902588328748247522173583640998839296479048273655345, [.eps 2697238398092563171739679704606318902588328748247522173583640998839296479048273634097, .eps 690493029911696171965358004379217639062612159551365676437412095702859898636358055327092, .cls 0 2697238398092563171739679704606318902588328748247522173583640998839296479048273655345], []⟩,
  ⟨2697238398092563171739679704606318902588328748247522173583640998839296479048273634097, [], [bs "COPY_TO_VALUE"]⟩,
  ⟨690493029911696171965358004379217639062612159551365676437412095702859898636358055327092, [.eps 146217586546163942484823414865147589620170953295689768172148438069], []⟩,
  ⟨45252151208292920325921702174996407193607350488358300971002098318016151862582378996148627822, [.eps 11584550709322987603435955756799080241563481725019725048576537169412134876821089023014049117556, .cls 8 45252151208292920325921702174996407193607350488358300971002098318016151862582378996148627822], []⟩,
  ⟨11584550709322987603435955756799080241563481725019725048576537169412134876821089023014049117556, [.eps 12737348207461333518789336884724474695781103082714466313868349166357256459551243248630363929291981750957413], []⟩,
  ⟨10536087492549074889608123846118433213235659172841883490561064964655781783855260012, [.eps 146217586546163942484823414865147589620170953295689768172153435508, .eps 146217586546163942484823414865147589620170953295689768172148438070], []⟩,
  ⟨146217586546163942484823414865147589620170953295689768172148438070, [], [bs "GOT_NAMEVALUE"]⟩,
  ⟨690493029911696171965358004379217639062612159551365676437409953523680522348836055577957, [.eps 146217586546163942484823414865147589620170953295689768172153435508, .eps 146217586546163942484823414865147589620170953295689768172148438071], []⟩,
  ⟨146217586546163942484823414865147589620170953295689768172148438071, [], [bs "GOT_NAMEVALUE_CONT"]⟩,
  ⟨2697238398092563171739679704606318902588328748247522173583632630951877032672691971444, [.eps 146217586546163942484823414865147589620170953295689768172153435508, .eps 146217586546163942484823414865147589620170953295689768172148438072], []⟩,
  ⟨146217586546163942484823414865147589620170953295689768172148438072, [], [bs "GOT_NAMEVALUE_CSET"]⟩,
  ⟨12737348207461333518789336884724474695781103082714466313868349166357256459551243248630363929291981750957413, [.eps 146217586546163942484823414865147589620170953295689768172153435508, .eps 146217586546163942484823414865147589620170953295689768172148438073], []⟩,
  ⟨146217586546163942484823414865147589620170953295689768172148438073, [], [bs "GOT_NAMEVALUE_CCONT"]⟩,
  ⟨146217586546163942484823414865147589620170953295689768172153435508, [.eps 1845525402912616395719345819167454580], []⟩,
  ⟨519469219803752730814577684502167150597779217082734, [.cls 2 8715247305999037175466025761672710753683471045329182090545], []⟩,
  ⟨8715247305999037175466025761672710753683471045329182090545, [.eps 132984120269760699088531887232554790553031479573575028, .cls 9 8715247305999037175466025761672710753683471045329182090546, .cls 2 8715247305999037175466025761672710753683471045329182090545, .eps 519469219803752730814577684502167150597779217064754, .eps 519469219803752730814577684502167150597779217064753], []⟩,
  ⟨519469219803752730814577684502167150597779217064753, [], [bs "COPY_TO_NAME"]⟩,
  ⟨519469219803752730814577684502167150597779217064754, [], [bs "GOT_NAME"]⟩,
  ⟨8715247305999037175466025761672710753683471045329182090546, [.eps 132984120269760699088531887232554790553031479573575028, .cls 2 8715247305999037175466025761672710753683471045329182090545, .cls 10 8715247305999037175466025761672710753683471045329182090546, .eps 519469219803752730814577684502167150597779217064756, .eps 519469219803752730814577684502167150597779217064755], []⟩,
  ⟨519469219803752730814577684502167150597779217064755, [], [bs "COPY_TO_NAME"]⟩,
  ⟨519469219803752730814577684502167150597779217064756, [], [bs "GOT_NAME_TRAILING_SPACE"]⟩,
  ⟨132984120269760699088531887232554790553031479573575028, [.eps 1845525402912616395719345819167454580], []⟩,
  ⟨146217586546163942484823414865142397088718001932759277673225546094, [.eps 2697238398092563171739679704606223117289521467245943303594015060671040439731746662766], []⟩,
  ⟨2697238398092563171739679704606223117289521467245943303594015060671040439731746662766, [.cls 2 45252151208292920325921702174994800182959636192622115928150366980131150402114495839768241457], []⟩,
  ⟨45252151208292920325921702174994800182959636192622115928150366980131150402114495839768241457, [.cls 2 45252151208292920325921702174994800182959636192622115928150366980131150402114495839768241457, .eps 690493029911696171965358004379193118026117495614961485720067855531786352571327146063220], []⟩,
  ⟨690493029911696171965358004379193118026117495614961485720067855531786352571327146063220, [.eps 37431702155817969276114794205476453654711808494786375084345739603823], []⟩,
  ⟨37431702155817969276114794205476453654711808494786375084345739603823, [.cls 32 37431702155817969276114794205476453654711808494786375084345739338098], []⟩,
  ⟨37431702155817969276114794205476453654711808494786375084345739338098, [.eps 2697238398092563171739679704606223117289521467245943303594015060818902622697591564654], []⟩,
  ⟨2697238398092563171739679704606223117289521467245943303594015060818902622697591564654, [.cls 3 11584550709322987603435955756798668846837666865311261677606493947548637743094783072532824027697, .cls 2 11584550709322987603435955756798668846837666865311261677606493947548637743094783072532824027697], []⟩,
  ⟨11584550709322987603435955756798668846837666865311261677606493947548637743094783072532824027697, [.eps 2697238398092563171739679704606223117289521467245943303594015060818902622697591546673, .cls 3 11584550709322987603435955756798668846837666865311261677606493947548637743094783072532824027697, .cls 2 11584550709322987603435955756798668846837666865311261677606493947548637743094783072532824027697, .eps 690493029911696171965358004379193118026117495614961485720067855569639071410583440946548], []⟩,
  ⟨2697238398092563171739679704606223117289521467245943303594015060818902622697591546673, [], [bs "COPY_TO_MINOR"]⟩,
  ⟨690493029911696171965358004379193118026117495614961485720067855569639071410583440946548, [.eps 37431702155817969276114794205476453654711808494786375084345740195188], []⟩,
  ⟨37431702155817969276114794205476453654711808494786375084345740195188, [.eps 146217586546163942484823414865142397088718001932759277673225528113, .eps 1845525402912616395719345819167454580], []⟩,
  ⟨146217586546163942484823414865142397088718001932759277673225528113, [], [bs "GOT_MAJORMINOR"]⟩,
  ⟨1845525402912616395719345819167454580, [.eps 74546], []⟩, ⟨74547, [.token 0 6164935730], []⟩,
  ⟨29111538763117749496338782775662, [.eps 7452553923358143871062728390964596, .cls 8 29111538763117749496338782775662], []⟩,
  ⟨7452553923358143871062728390964596, [.eps 74547], []⟩, ⟨74548, [.eps 7209083605127407795778694656452974], []⟩,
  ⟨29111538763117749496338799552878, [.eps 7452553923358143871062732685931892, .cls 8 29111538763117749496338799552878], []⟩,
  ⟨7452553923358143871062732685931892, [.eps 74548], []⟩, ⟨74549, [.eps 29111538763117749496338833107310], []⟩,
  ⟨7209083605127407795778694656452974, [.eps 571162447445952900331341468304666759308540405022709337763506542, .eps 519469219803752730814577688128944609441666741201262, .eps 146217586546163942484823415885989497851533392322883099968530180462], []⟩,
  ⟨571162447445952900331341468304666759308540405022709337763506542, [.eps 45252151208292920325921702490933282199278910582112384022013395274701438064229712750407739758, .eps 45252151208292920325921702490933282199278910582112384022013395274701438064229712750357408110, .eps 176766215657394220023131650355208133590933244461376500085989825291802492438397315548342638, .eps 176766215657394220023131650355208133590933244461376500085989825291802492438397315481233774, .eps 176766215657394220023131650355208133590933244461376500085989825291802492438397315430902126], []⟩,
  ⟨571162447445952900331341468304666759308540405022709337763488561, [.eps 41156591767769823787531734061243043651555954586103674975687112056840227616876910], []⟩,
  ⟨176766215657394220023131650355208133590933244461376500085989825291802492438397315430902126, [.eps 45252151208292920325921702490933282199278910582112384022013395274701438064229712750311339380, .cls 8 176766215657394220023131650355208133590933244461376500085989825291802492438397315430902126], []⟩,
  ⟨45252151208292920325921702490933282199278910582112384022013395274701438064229712750311339380, [.eps 571162447445952900331341468304666759308540405022709337763488561], []⟩,
  ⟨571162447445952900331341468304666759308540405022709337763488562, [.eps 176766215657394220023131650355208133590933244461376500085989825291802492438397315464456558], []⟩,
  ⟨41156591767769823787531734061243043651555954586103674975687112056840227616876910, [.cls 2 690493029911696171965358009200031771839582986177251953460897427393812776217530428384561], []⟩,
  ⟨690493029911696171965358009200031771839582986177251953460897427393812776217530428384561, [.eps 41156591767769823787531734061243043651555954586103674975687112056840227616858929, .eps 41156591767769823787531734061243043651555954586103674975687112056840227616858930, .cls 2 690493029911696171965358009200031771839582986177251953460897427393812776217530428384561, .cls 9 690493029911696171965358009200031771839582986177251953460897427393812776217530428384562, .eps 10536087492549074889608123919678219174798324374042540793775900686551098269920884084], []⟩,
  ⟨41156591767769823787531734061243043651555954586103674975687112056840227616858929, [], [bs "COPY_TO_NAME"]⟩,
  ⟨41156591767769823787531734061243043651555954586103674975687112056840227616858930, [], [bs "GOT_NAME"]⟩,
  ⟨690493029911696171965358009200031771839582986177251953460897427393812776217530428384562, [.eps 41156591767769823787531734061243043651555954586103674975687112056840227616858931, .eps 41156591767769823787531734061243043651555954586103674975687112056840227616858932, .cls 10 690493029911696171965358009200031771839582986177251953460897427393812776217530428384562, .cls 2 690493029911696171965358009200031771839582986177251953460897427393812776217530428384561, .eps 10536087492549074889608123919678219174798324374042540793775900686551098269920884084], []⟩,
  ⟨41156591767769823787531734061243043651555954586103674975687112056840227616858931, [], [bs "COPY_TO_NAME"]⟩,
  ⟨41156591767769823787531734061243043651555954586103674975687112056840227616858932, [], [bs "GOT_NAME_TRAILING_SPACE"]⟩,
  ⟨10536087492549074889608123919678219174798324374042540793775900686551098269920884084, [.eps 571162447445952900331341468304666759308540405022709337763488562], []⟩,
  ⟨571162447445952900331341468304666759308540405022709337763488563, [.cls 15 10536087492549074889608123919678219174798324374042540793775919705574977705341706604], []⟩,
  ⟨176766215657394220023131650355208133590933244461376500085989825291802492438397315464456558, [.eps 45252151208292920325921702490933282199278910582112384022013395274701438064229712758901273972, .cls 8 176766215657394220023131650355208133590933244461376500085989825291802492438397315464456558], []⟩,
  ⟨45252151208292920325921702490933282199278910582112384022013395274701438064229712758901273972, [.eps 571162447445952900331341468304666759308540405022709337763488563], []⟩,
  ⟨571162447445952900331341468304666759308540405022709337763488564, [.eps 41156591767769823787531734061243043651555954586103674975687112056840227667208558], []⟩,
  ⟨176766215657394220023131650355208133590933244461376500085989825291802492438397315481233774, [.eps 45252151208292920325921702490933282199278910582112384022013395274701438064229712763196241268, .cls 8 176766215657394220023131650355208133590933244461376500085989825291802492438397315481233774], []⟩,
  ⟨45252151208292920325921702490933282199278910582112384022013395274701438064229712763196241268, [.eps 571162447445952900331341468304666759308540405022709337763488564], []⟩,
  ⟨571162447445952900331341468304666759308540405022709337763488565, [.cls 16 571162447445952900331341468304666759308540405022709337763488566], []⟩,
  ⟨41156591767769823787531734061243043651555954586103674975687112056840227667208558, [.cls 2 690493029911696171965358009200031771839582986177251953460897427393812777061955358516529], []⟩,
  ⟨690493029911696171965358009200031771839582986177251953460897427393812777061955358516529, [.eps 41156591767769823787531734061243043651555954586103674975687112056840227667190577, .eps 41156591767769823787531734061243043651555954586103674975687112056840227667190578, .cls 2 690493029911696171965358009200031771839582986177251953460897427393812777061955358516529, .cls 9 690493029911696171965358009200031771839582986177251953460897427393812777061955358516530, .eps 10536087492549074889608123919678219174798324374042540793775900686551098282805785972], []⟩,
  ⟨41156591767769823787531734061243043651555954586103674975687112056840227667190577, [], [bs "COPY_TO_NAME"]⟩,
  ⟨41156591767769823787531734061243043651555954586103674975687112056840227667190578, [], [bs "GOT_NAME"]⟩,
  ⟨690493029911696171965358009200031771839582986177251953460897427393812777061955358516530, [.eps 41156591767769823787531734061243043651555954586103674975687112056840227667190579, .eps 41156591767769823787531734061243043651555954586103674975687112056840227667190580, .cls 10 690493029911696171965358009200031771839582986177251953460897427393812777061955358516530, .cls 2 690493029911696171965358009200031771839582986177251953460897427393812777061955358516529, .eps 10536087492549074889608123919678219174798324374042540793775900686551098282805785972], []⟩,
  ⟨41156591767769823787531734061243043651555954586103674975687112056840227667190579, [], [bs "COPY_TO_NAME"]⟩,
  ⟨41156591767769823787531734061243043651555954586103674975687112056840227667190580, [], [bs "GOT_NAME_TRAILING_SPACE"]⟩,
  ⟨10536087492549074889608123919678219174798324374042540793775900686551098282805785972, [.eps 571162447445952900331341468304666759308540405022709337763488565], []⟩,
  ⟨571162447445952900331341468304666759308540405022709337763488566, [.eps 2697238398092563171739679723437624108748371039754890443206618524167447510592219146606], []⟩,
  ⟨571162447445952900331341468304666759308540405022709337763488567, [.eps 176766215657394220023131650355208133590933244461376500085989825291802492438397315531565422], []⟩,
  ⟨2697238398092563171739679723437624108748371039754890443206618524167447510592219146606, [.cls 13 690493029911696171965358009200031771839582986177251953460894342186866562711608101926260, .cls 14 2697238398092563171739679723437624108748371039754890443206618524167447510592219146606], []⟩,
  ⟨690493029911696171965358009200031771839582986177251953460894342186866562711608101926260, [.eps 571162447445952900331341468304666759308540405022709337763488567], []⟩,
  ⟨571162447445952900331341468304666759308540405022709337763488568, [.cls 17 690493029911696171965358009200031771839582986177251953460898673824560946259371819431269], []⟩,
  ⟨176766215657394220023131650355208133590933244461376500085989825291802492438397315531565422, [.eps 45252151208292920325921702490933282199278910582112384022013395274701438064229712776081143156, .cls 8 176766215657394220023131650355208133590933244461376500085989825291802492438397315531565422], []⟩,
  ⟨45252151208292920325921702490933282199278910582112384022013395274701438064229712776081143156, [.eps 571162447445952900331341468304666759308540405022709337763488568], []⟩,
  ⟨571162447445952900331341468304666759308540405022709337763488569, [.eps 41156591767769823787531734061243043651555954586103674975687112056840227734317422], []⟩,
  ⟨176766215657394220023131650355208133590933244461376500085989825291802492438397315548342638, [.eps 45252151208292920325921702490933282199278910582112384022013395274701438064229712780376110452, .cls 8 176766215657394220023131650355208133590933244461376500085989825291802492438397315548342638], []⟩,
  ⟨45252151208292920325921702490933282199278910582112384022013395274701438064229712780376110452, [.eps 571162447445952900331341468304666759308540405022709337763488569], []⟩,
  ⟨146217586546163942484823415885994690382986343685813590467453071664, [.cls 18 146217586546163942484823415885994690382986343685813590467453071665], []⟩,
  ⟨41156591767769823787531734061243043651555954586103674975687112056840227734317422, [.cls 2 690493029911696171965358009200031771839582986177251953460897427393812778187855265359153], []⟩,
  ⟨690493029911696171965358009200031771839582986177251953460897427393812778187855265359153, [.eps 41156591767769823787531734061243043651555954586103674975687112056840227734299441, .eps 41156591767769823787531734061243043651555954586103674975687112056840227734299442, .cls 2 690493029911696171965358009200031771839582986177251953460897427393812778187855265359153, .cls 9 690493029911696171965358009200031771839582986177251953460897427393812778187855265359154, .eps 10536087492549074889608123919678219174798324374042540793775900686551098299985655156], []⟩,
  ⟨41156591767769823787531734061243043651555954586103674975687112056840227734299441, [], [bs "COPY_TO_NAME"]⟩,
  ⟨41156591767769823787531734061243043651555954586103674975687112056840227734299442, [], [bs "GOT_NAME"]⟩,
  ⟨690493029911696171965358009200031771839582986177251953460897427393812778187855265359154, [.eps 41156591767769823787531734061243043651555954586103674975687112056840227734299443, .eps 41156591767769823787531734061243043651555954586103674975687112056840227734299444, .cls 10 690493029911696171965358009200031771839582986177251953460897427393812778187855265359154, .cls 2 690493029911696171965358009200031771839582986177251953460897427393812778187855265359153, .eps 10536087492549074889608123919678219174798324374042540793775900686551098299985655156], []⟩,
  ⟨41156591767769823787531734061243043651555954586103674975687112056840227734299443, [], [bs "COPY_TO_NAME"]⟩,
  ⟨41156591767769823787531734061243043651555954586103674975687112056840227734299444, [], [bs "GOT_NAME_TRAILING_SPACE"]⟩,
  ⟨10536087492549074889608123919678219174798324374042540793775900686551098299985655156, [.eps 146217586546163942484823415885994690382986343685813590467453071664], []⟩,
  ⟨146217586546163942484823415885994690382986343685813590467453071665, [.eps 45252151208292920325921702490933282199278910582112384022013395274701438064229712750340630894], []⟩,
  ⟨146217586546163942484823415885994690382986343685813590467453071666, [.cls 19 2697238398092563171739679723437624108748371039754890443206635444627191188573222298996], []⟩,
  ⟨45252151208292920325921702490933282199278910582112384022013395274701438064229712750340630894, [.eps 11584550709322987603435955837678920243015401109020770309635429190323568144442806464087201903988, .cls 8 45252151208292920325921702490933282199278910582112384022013395274701438064229712750340630894], []⟩,
  ⟨11584550709322987603435955837678920243015401109020770309635429190323568144442806464087201903988, [.eps 146217586546163942484823415885994690382986343685813590467453071666], []⟩,
  ⟨146217586546163942484823415885994690382986343685813590467453071667, [.eps 10536087492549074889608123919678219174798324374042540793775900686551098265688762734], []⟩,
  ⟨45252151208292920325921702490933282199278910582112384022013395274701438064229712750357408110, [.eps 11584550709322987603435955837678920243015401109020770309635429190323568144442806464091496871284, .cls 8 45252151208292920325921702490933282199278910582112384022013395274701438064229712750357408110], []⟩,
  ⟨11584550709322987603435955837678920243015401109020770309635429190323568144442806464091496871284, [.eps 146217586546163942484823415885994690382986343685813590467453071667], []⟩,
  ⟨146217586546163942484823415885994690382986343685813590467453071668, [.cls 20 146217586546163942484823415885994690382986343685813590467453071669], []⟩,
  ⟨10536087492549074889608123919678219174798324374042540793775900686551098265688762734, [.cls 2 176766215657394220023131650355208133590933244461376500085989741412816070640685782424970545], []⟩,
  ⟨176766215657394220023131650355208133590933244461376500085989741412816070640685782424970545, [.eps 10536087492549074889608123919678219174798324374042540793775900686551098265688744753, .eps 10536087492549074889608123919678219174798324374042540793775900686551098265688744754, .cls 2 176766215657394220023131650355208133590933244461376500085989741412816070640685782424970545, .cls 9 176766215657394220023131650355208133590933244461376500085989741412816070640685782424970546, .eps 2697238398092563171739679723437624108748371039754890443206630575757081156016323655028], []⟩,
  ⟨10536087492549074889608123919678219174798324374042540793775900686551098265688744753, [], [bs "COPY_TO_NAME"]⟩,
  ⟨10536087492549074889608123919678219174798324374042540793775900686551098265688744754, [], [bs "GOT_NAME"]⟩,
  ⟨176766215657394220023131650355208133590933244461376500085989741412816070640685782424970546, [.eps 10536087492549074889608123919678219174798324374042540793775900686551098265688744755, .eps 10536087492549074889608123919678219174798324374042540793775900686551098265688744756, .cls 10 176766215657394220023131650355208133590933244461376500085989741412816070640685782424970546, .cls 2 176766215657394220023131650355208133590933244461376500085989741412816070640685782424970545, .eps 2697238398092563171739679723437624108748371039754890443206630575757081156016323655028], []⟩,
  ⟨10536087492549074889608123919678219174798324374042540793775900686551098265688744755, [], [bs "COPY_TO_NAME"]⟩,
  ⟨10536087492549074889608123919678219174798324374042540793775900686551098265688744756, [], [bs "GOT_NAME_TRAILING_SPACE"]⟩,
  ⟨2697238398092563171739679723437624108748371039754890443206630575757081156016323655028, [.eps 146217586546163942484823415885994690382986343685813590467453071668], []⟩,
  ⟨146217586546163942484823415885994690382986343685813590467453071669, [.cls 21 146217586546163942484823415885994690382986343685813590467453071670], []⟩,
  ⟨146217586546163942484823415885994690382986343685813590467453071670, [.cls 22 146217586546163942484823415885994690382986343685813590467453071671], []⟩,
  ⟨146217586546163942484823415885994690382986343685813590467453071671, [.eps 45252151208292920325921702490933282199278910582112384022013395274701438064229712750390962542], []⟩,
  ⟨146217586546163942484823415885994690382986343685813590467453071672, [.cls 23 2697238398092563171739679723437624108748371039754890443206635444627191188573222298996], []⟩,
  ⟨45252151208292920325921702490933282199278910582112384022013395274701438064229712750390962542, [.eps 11584550709322987603435955837678920243015401109020770309635429190323568144442806464100086805876, .cls 8 45252151208292920325921702490933282199278910582112384022013395274701438064229712750390962542], []⟩,
  ⟨11584550709322987603435955837678920243015401109020770309635429190323568144442806464100086805876, [.eps 146217586546163942484823415885994690382986343685813590467453071672], []⟩,
  ⟨146217586546163942484823415885994690382986343685813590467453071673, [.eps 10536087492549074889608123919678219174798324374042540793775900686551098265739094382], []⟩,
  ⟨45252151208292920325921702490933282199278910582112384022013395274701438064229712750407739758, [.eps 11584550709322987603435955837678920243015401109020770309635429190323568144442806464104381773172, .cls 8 45252151208292920325921702490933282199278910582112384022013395274701438064229712750407739758], []⟩,
  ⟨11584550709322987603435955837678920243015401109020770309635429190323568144442806464104381773172, [.eps 146217586546163942484823415885994690382986343685813590467453071673], []⟩,
  ⟨146217586546163942484823415885994690382986343685813590467453071920, [.cls 24 146217586546163942484823415885994690382986343685813590467453071921], []⟩,
  ⟨10536087492549074889608123919678219174798324374042540793775900686551098265739094382, [.cls 2 176766215657394220023131650355208133590933244461376500085989741412816070641530207355102513], []⟩,
  ⟨176766215657394220023131650355208133590933244461376500085989741412816070641530207355102513, [.eps 10536087492549074889608123919678219174798324374042540793775900686551098265739076401, .eps 10536087492549074889608123919678219174798324374042540793775900686551098265739076402, .cls 2 176766215657394220023131650355208133590933244461376500085989741412816070641530207355102513, .cls 9 176766215657394220023131650355208133590933244461376500085989741412816070641530207355102514, .eps 2697238398092563171739679723437624108748371039754890443206630575757081156029208556916], []⟩,
  ⟨10536087492549074889608123919678219174798324374042540793775900686551098265739076401, [], [bs "COPY_TO_NAME"]⟩,
  ⟨10536087492549074889608123919678219174798324374042540793775900686551098265739076402, [], [bs "GOT_NAME"]⟩,
  ⟨176766215657394220023131650355208133590933244461376500085989741412816070641530207355102514, [.eps 10536087492549074889608123919678219174798324374042540793775900686551098265739076403, .eps 10536087492549074889608123919678219174798324374042540793775900686551098265739076404, .cls 10 176766215657394220023131650355208133590933244461376500085989741412816070641530207355102514, .cls 2 176766215657394220023131650355208133590933244461376500085989741412816070641530207355102513, .eps 2697238398092563171739679723437624108748371039754890443206630575757081156029208556916], []⟩,
  ⟨10536087492549074889608123919678219174798324374042540793775900686551098265739076403, [], [bs "COPY_TO_NAME"]⟩,
  ⟨10536087492549074889608123919678219174798324374042540793775900686551098265739076404, [], [bs "GOT_NAME_TRAILING_SPACE"]⟩,
  ⟨2697238398092563171739679723437624108748371039754890443206630575757081156029208556916, [.eps 146217586546163942484823415885994690382986343685813590467453071920], []⟩,
  ⟨146217586546163942484823415885994690382986343685813590467453071921, [.cls 25 146217586546163942484823415885994690382986343685813590467453071922], []⟩,
  ⟨146217586546163942484823415885994690382986343685813590467453071922, [.cls 26 146217586546163942484823415885994690382986343685813590467453071923], []⟩,
  ⟨146217586546163942484823415885994690382986343685813590467453071923, [.eps 45252151208292920325921702490933282199278910582112384022013395274701438064229712750441294190], []⟩,
  ⟨146217586546163942484823415885994690382986343685813590467453071924, [.cls 27 12737348207461333518789336973652799230039941168016982800540679234644117287451908043754460397379669667509605], []⟩,
  ⟨45252151208292920325921702490933282199278910582112384022013395274701438064229712750441294190, [.eps 11584550709322987603435955837678920243015401109020770309635429190323568144442806464112971707764, .cls 8 45252151208292920325921702490933282199278910582112384022013395274701438064229712750441294190], []⟩,
  ⟨11584550709322987603435955837678920243015401109020770309635429190323568144442806464112971707764, [.eps 146217586546163942484823415885994690382986343685813590467453071924], []⟩,
  ⟨10536087492549074889608123919678219174798324374042540793775919705574977705341706604, [.eps 45252151208292920325921702490933282199278910582112384022013395274701438064229712754685929838, .eps 45252151208292920325921702490933282199278910582112384022013395274701438064229712754635598190, .eps 45252151208292920325921702490933282199278910582112384022013395274701438064229712750458071406], []⟩,
  ⟨146217586546163942484823415885994690382986343685813590467453071925, [.eps 690493029911696171965358009200031771839582986177251953460898381179751104639607105284462], []⟩,
  ⟨45252151208292920325921702490933282199278910582112384022013395274701438064229712750458071406, [.eps 11584550709322987603435955837678920243015401109020770309635429190323568144442806464117266675060, .cls 8 45252151208292920325921702490933282199278910582112384022013395274701438064229712750458071406], []⟩,
  ⟨11584550709322987603435955837678920243015401109020770309635429190323568144442806464117266675060, [.eps 146217586546163942484823415885994690382986343685813590467453071925], []⟩,
  ⟨146217586546163942484823415885994690382986343685813590467453071926, [.eps 45252151208292920325921702490933282199278910582112384022013395274701438064229712750491625838], []⟩,
  ⟨690493029911696171965358009200031771839582986177251953460898381179751104639607105284462, [.cls 11 176766215657394220023131650355208133590933244461376500085989985582016282787739418953348656], []⟩,
  ⟨176766215657394220023131650355208133590933244461376500085989985582016282787739418953348656, [.eps 3260761141110101380810070265255116602890224939012347596938412502092852653133760397621981344146112076525234542, .cls 1 176766215657394220023131650355208133590933244461376500085989985582016282787739418953348657, .cls 0 176766215657394220023131650355208133590933244461376500085989985582016282787739418953348657], []⟩,
  ⟨3260761141110101380810070265255116602890224939012347596938412502092852653133760397621981344146112076525234542, [.cls 6 3260761141110101380810070265255116602890224939012347596938412502092852653133760397621981344146112076525216562, .cls 4 3260761141110101380810070265255116602890224939012347596938412502092852653133760397621981344146112076525216561], []⟩,
  ⟨3260761141110101380810070265255116602890224939012347596938412502092852653133760397621981344146112076525216561, [.cls 5 834754852124185953487377987905309850339897584387160984816233600535770279202242661791227224101404691590460437876], []⟩,
  ⟨3260761141110101380810070265255116602890224939012347596938412502092852653133760397621981344146112076525216562, [.cls 7 834754852124185953487377987905309850339897584387160984816233600535770279202242661791227224101404691590460437876], []⟩,
  ⟨834754852124185953487377987905309850339897584387160984816233600535770279202242661791227224101404691590460437876, [.eps 176766215657394220023131650355208133590933244461376500085989985582016282787739418953348657], []⟩,
  ⟨176766215657394220023131650355208133590933244461376500085989985582016282787739418953348657, [.eps 690493029911696171965358009200031771839582986177251953460898381179751104639607105266481, .eps 3260761141110101380810070265255116602890224939012347596938412502092852653133760397621981344146112076542011758, .cls 1 176766215657394220023131650355208133590933244461376500085989985582016282787739418953348657, .cls 0 176766215657394220023131650355208133590933244461376500085989985582016282787739418953348657, .eps 176766215657394220023131650355208133590933244461376500085989985582016282787739418953348658], []⟩,
  ⟨690493029911696171965358009200031771839582986177251953460898381179751104639607105266481, [], [bs "COPY_TO_VALUE"]⟩,
  ⟨3260761141110101380810070265255116602890224939012347596938412502092852653133760397621981344146112076542011758, [.cls 6 3260761141110101380810070265255116602890224939012347596938412502092852653133760397621981344146112076541993778, .cls 4 3260761141110101380810070265255116602890224939012347596938412502092852653133760397621981344146112076541993777], []⟩,
  ⟨3260761141110101380810070265255116602890224939012347596938412502092852653133760397621981344146112076541993777, [.cls 5 834754852124185953487377987905309850339897584387160984816233600535770279202242661791227224101404691594755405172], []⟩,
  ⟨3260761141110101380810070265255116602890224939012347596938412502092852653133760397621981344146112076541993778, [.cls 7 834754852124185953487377987905309850339897584387160984816233600535770279202242661791227224101404691594755405172], []⟩,
  ⟨834754852124185953487377987905309850339897584387160984816233600535770279202242661791227224101404691594755405172, [.eps 176766215657394220023131650355208133590933244461376500085989985582016282787739418953348657], []⟩,
  ⟨176766215657394220023131650355208133590933244461376500085989985582016282787739418953348658, [.cls 12 176766215657394220023131650355208133590933244461376500085989985582016282787739418953217396], []⟩,
  ⟨176766215657394220023131650355208133590933244461376500085989985582016282787739418953217396, [.eps 146217586546163942484823415885994690382986343685813590467453071926], []⟩,
  ⟨45252151208292920325921702490933282199278910582112384022013395274701438064229712750491625838, [.eps 11584550709322987603435955837678920243015401109020770309635429190323568144442806464125856609652, .cls 8 45252151208292920325921702490933282199278910582112384022013395274701438064229712750491625838], []⟩,
  ⟨11584550709322987603435955837678920243015401109020770309635429190323568144442806464125856609652, [.eps 10536087492549074889608123919678219174798324374042540793775905778355259648668164460], []⟩,
  ⟨146217586546163942484823415885994690382986343685813590467453071927, [.eps 2697238398092563171739679723437624108748371039754890443206640247146362812435964782958], []⟩,
  ⟨45252151208292920325921702490933282199278910582112384022013395274701438064229712754635598190, [.eps 11584550709322987603435955837678920243015401109020770309635429190323568144442806465186713531764, .cls 8 45252151208292920325921702490933282199278910582112384022013395274701438064229712754635598190], []⟩,
  ⟨11584550709322987603435955837678920243015401109020770309635429190323568144442806465186713531764, [.eps 146217586546163942484823415885994690382986343685813590467453071927], []⟩,
  ⟨146217586546163942484823415885994690382986343685813590467453071928, [.eps 45252151208292920325921702490933282199278910582112384022013395274701438064229712754669152622], []⟩,
  ⟨2697238398092563171739679723437624108748371039754890443206640247146362812435964782958, [.cls 0 2697238398092563171739679723437624108748371039754890443206640247146362812435964786225], []⟩,
  ⟨2697238398092563171739679723437624108748371039754890443206640247146362812435964786225, [.eps 2697238398092563171739679723437624108748371039754890443206640247146362812435964764977, .eps 690493029911696171965358009200031771839582986177251953460899903269468879983606984832372, .cls 0 2697238398092563171739679723437624108748371039754890443206640247146362812435964786225], []⟩,
  ⟨2697238398092563171739679723437624108748371039754890443206640247146362812435964764977, [], [bs "COPY_TO_VALUE"]⟩,
  ⟨690493029911696171965358009200031771839582986177251953460899903269468879983606984832372, [.eps 146217586546163942484823415885994690382986343685813590467453071928], []⟩,
  ⟨45252151208292920325921702490933282199278910582112384022013395274701438064229712754669152622, [.eps 11584550709322987603435955837678920243015401109020770309635429190323568144442806465195303466356, .cls 8 45252151208292920325921702490933282199278910582112384022013395274701438064229712754669152622], []⟩,
  ⟨11584550709322987603435955837678920243015401109020770309635429190323568144442806465195303466356, [.eps 10536087492549074889608123919678219174798324374042540793775905778355259648668164460], []⟩,
  ⟨146217586546163942484823415885994690382986343685813590467453071929, [.eps 146217586546163942484823415885994690382986343685813590467453072176], []⟩,
  ⟨45252151208292920325921702490933282199278910582112384022013395274701438064229712754685929838, [.eps 11584550709322987603435955837678920243015401109020770309635429190323568144442806465199598433652, .cls 8 45252151208292920325921702490933282199278910582112384022013395274701438064229712754685929838], []⟩,
  ⟨11584550709322987603435955837678920243015401109020770309635429190323568144442806465199598433652, [.eps 146217586546163942484823415885994690382986343685813590467453071929], []⟩,
  ⟨146217586546163942484823415885994690382986343685813590467453072176, [.token 0 10536087492549074889608123919678219174798324374042540793775905778355259648668164460], []⟩,
  ⟨690493029911696171965358009200031771839582986177251953460898673824560946259371819431269, [.eps 45252151208292920325921702490933282199278910582112384022013395274701438064229712754753038702, .eps 45252151208292920325921702490933282199278910582112384022013395274701438064229712754702707054], []⟩,
  ⟨146217586546163942484823415885994690382986343685813590467453072177, [.eps 690493029911696171965358009200031771839582986177251953460898381179751104639611349920110], []⟩,
  ⟨45252151208292920325921702490933282199278910582112384022013395274701438064229712754702707054, [.eps 11584550709322987603435955837678920243015401109020770309635429190323568144442806465203893400948, .cls 8 45252151208292920325921702490933282199278910582112384022013395274701438064229712754702707054], []⟩,
  ⟨11584550709322987603435955837678920243015401109020770309635429190323568144442806465203893400948, [.eps 146217586546163942484823415885994690382986343685813590467453072177], []⟩,
  ⟨146217586546163942484823415885994690382986343685813590467453072178, [.eps 45252151208292920325921702490933282199278910582112384022013395274701438064229712754736261486], []⟩,
  ⟨690493029911696171965358009200031771839582986177251953460898381179751104639611349920110, [.cls 11 176766215657394220023131650355208133590933244461376500085989985582016282787740505580074544], []⟩,
  ⟨176766215657394220023131650355208133590933244461376500085989985582016282787740505580074544, [.eps 3260761141110101380810070265255116602890224939012347596938412502092852653133780442347097453023523243144669550, .cls 1 176766215657394220023131650355208133590933244461376500085989985582016282787740505580074545, .cls 0 176766215657394220023131650355208133590933244461376500085989985582016282787740505580074545], []⟩,
  ⟨3260761141110101380810070265255116602890224939012347596938412502092852653133780442347097453023523243144669550, [.cls 6 3260761141110101380810070265255116602890224939012347596938412502092852653133780442347097453023523243144651570, .cls 4 3260761141110101380810070265255116602890224939012347596938412502092852653133780442347097453023523243144651569], []⟩,
  ⟨3260761141110101380810070265255116602890224939012347596938412502092852653133780442347097453023523243144651569, [.cls 5 834754852124185953487377987905309850339897584387160984816233600535770279202247793240856947974021950245035799924], []⟩,
  ⟨3260761141110101380810070265255116602890224939012347596938412502092852653133780442347097453023523243144651570, [.cls 7 834754852124185953487377987905309850339897584387160984816233600535770279202247793240856947974021950245035799924], []⟩,
  ⟨834754852124185953487377987905309850339897584387160984816233600535770279202247793240856947974021950245035799924, [.eps 176766215657394220023131650355208133590933244461376500085989985582016282787740505580074545], []⟩,
  ⟨176766215657394220023131650355208133590933244461376500085989985582016282787740505580074545, [.eps 690493029911696171965358009200031771839582986177251953460898381179751104639611349902129, .eps 3260761141110101380810070265255116602890224939012347596938412502092852653133780442347097453023523243161446766, .cls 1 176766215657394220023131650355208133590933244461376500085989985582016282787740505580074545, .cls 0 176766215657394220023131650355208133590933244461376500085989985582016282787740505580074545, .eps 176766215657394220023131650355208133590933244461376500085989985582016282787740505580074546], []⟩,
  ⟨690493029911696171965358009200031771839582986177251953460898381179751104639611349902129, [], [bs "COPY_TO_VALUE"]⟩,
  ⟨3260761141110101380810070265255116602890224939012347596938412502092852653133780442347097453023523243161446766, [.cls 6 3260761141110101380810070265255116602890224939012347596938412502092852653133780442347097453023523243161428786, .cls 4 3260761141110101380810070265255116602890224939012347596938412502092852653133780442347097453023523243161428785], []⟩,
  ⟨3260761141110101380810070265255116602890224939012347596938412502092852653133780442347097453023523243161428785, [.cls 5 834754852124185953487377987905309850339897584387160984816233600535770279202247793240856947974021950249330767220], []⟩,
  ⟨3260761141110101380810070265255116602890224939012347596938412502092852653133780442347097453023523243161428786, [.cls 7 834754852124185953487377987905309850339897584387160984816233600535770279202247793240856947974021950249330767220], []⟩,
  ⟨834754852124185953487377987905309850339897584387160984816233600535770279202247793240856947974021950249330767220, [.eps 176766215657394220023131650355208133590933244461376500085989985582016282787740505580074545], []⟩,
  ⟨176766215657394220023131650355208133590933244461376500085989985582016282787740505580074546, [.cls 12 176766215657394220023131650355208133590933244461376500085989985582016282787740505579943284], []⟩,
  ⟨176766215657394220023131650355208133590933244461376500085989985582016282787740505579943284, [.eps 146217586546163942484823415885994690382986343685813590467453072178], []⟩,
  ⟨45252151208292920325921702490933282199278910582112384022013395274701438064229712754736261486, [.eps 11584550709322987603435955837678920243015401109020770309635429190323568144442806465212483335540, .cls 8 45252151208292920325921702490933282199278910582112384022013395274701438064229712754736261486], []⟩,
  ⟨11584550709322987603435955837678920243015401109020770309635429190323568144442806465212483335540, [.eps 690493029911696171965358009200031771839582986177251953460897761090289503697214561482085], []⟩,
  ⟨146217586546163942484823415885994690382986343685813590467453072179, [.eps 2697238398092563171739679723437624108748371039754890443206640247146362812436082223470], []⟩,
  ⟨45252151208292920325921702490933282199278910582112384022013395274701438064229712754753038702, [.eps 11584550709322987603435955837678920243015401109020770309635429190323568144442806465216778302836, .cls 8 45252151208292920325921702490933282199278910582112384022013395274701438064229712754753038702], []⟩,
  ⟨11584550709322987603435955837678920243015401109020770309635429190323568144442806465216778302836, [.eps 146217586546163942484823415885994690382986343685813590467453072179], []⟩,
  ⟨146217586546163942484823415885994690382986343685813590467453072180, [.eps 45252151208292920325921702490933282199278910582112384022013395274701438064229712754786593134], []⟩,
  ⟨2697238398092563171739679723437624108748371039754890443206640247146362812436082223470, [.cls 0 2697238398092563171739679723437624108748371039754890443206640247146362812436082226737], []⟩,
  ⟨2697238398092563171739679723437624108748371039754890443206640247146362812436082226737, [.eps 2697238398092563171739679723437624108748371039754890443206640247146362812436082205489, .eps 690493029911696171965358009200031771839582986177251953460899903269468879983637049603444, .cls 0 2697238398092563171739679723437624108748371039754890443206640247146362812436082226737], []⟩,
  ⟨2697238398092563171739679723437624108748371039754890443206640247146362812436082205489, [], [bs "COPY_TO_VALUE"]⟩,
  ⟨690493029911696171965358009200031771839582986177251953460899903269468879983637049603444, [.eps 146217586546163942484823415885994690382986343685813590467453072180], []⟩,
  ⟨45252151208292920325921702490933282199278910582112384022013395274701438064229712754786593134, [.eps 11584550709322987603435955837678920243015401109020770309635429190323568144442806465225368237428, .cls 8 45252151208292920325921702490933282199278910582112384022013395274701438064229712754786593134], []⟩,
  ⟨11584550709322987603435955837678920243015401109020770309635429190323568144442806465225368237428, [.eps 690493029911696171965358009200031771839582986177251953460897761090289503697214561482085], []⟩,
  ⟨2697238398092563171739679723437624108748371039754890443206635444627191188573222298996, [.eps 45252151208292920325921702490933282199278910582112384022013395274701438064229712758980897134, .eps 45252151208292920325921702490933282199278910582112384022013395274701438064229712758930565486], []⟩,
  ⟨146217586546163942484823415885994690382986343685813590467453072181, [.cls 28 146217586546163942484823415885994690382986343685813590467453072182], []⟩,
  ⟨45252151208292920325921702490933282199278910582112384022013395274701438064229712758930565486, [.eps 11584550709322987603435955837678920243015401109020770309635429190323568144442806466286225159540, .cls 8 45252151208292920325921702490933282199278910582112384022013395274701438064229712758930565486], []⟩,
  ⟨11584550709322987603435955837678920243015401109020770309635429190323568144442806466286225159540, [.eps 146217586546163942484823415885994690382986343685813590467453072181], []⟩,
  ⟨146217586546163942484823415885994690382986343685813590467453072182, [.cls 29 146217586546163942484823415885994690382986343685813590467453072183], []⟩,
  ⟨146217586546163942484823415885994690382986343685813590467453072183, [.eps 2697238398092563171739679723437624108748371039754890443206640247146362812440259750254], []⟩,
  ⟨146217586546163942484823415885994690382986343685813590467453072184, [.eps 45252151208292920325921702490933282199278910582112384022013395274701438064229712758964119918], []⟩,
  ⟨2697238398092563171739679723437624108748371039754890443206640247146362812440259750254, [.cls 0 2697238398092563171739679723437624108748371039754890443206640247146362812440259753521], []⟩,
  ⟨2697238398092563171739679723437624108748371039754890443206640247146362812440259753521, [.eps 2697238398092563171739679723437624108748371039754890443206640247146362812440259732273, .eps 690493029911696171965358009200031771839582986177251953460899903269468879984706496460148, .cls 0 2697238398092563171739679723437624108748371039754890443206640247146362812440259753521], []⟩,
  ⟨2697238398092563171739679723437624108748371039754890443206640247146362812440259732273, [], [bs "COPY_TO_VALUE"]⟩,
  ⟨690493029911696171965358009200031771839582986177251953460899903269468879984706496460148, [.eps 146217586546163942484823415885994690382986343685813590467453072184], []⟩,
  ⟨45252151208292920325921702490933282199278910582112384022013395274701438064229712758964119918, [.eps 11584550709322987603435955837678920243015401109020770309635429190323568144442806466294815094132, .cls 8 45252151208292920325921702490933282199278910582112384022013395274701438064229712758964119918], []⟩,
  ⟨11584550709322987603435955837678920243015401109020770309635429190323568144442806466294815094132, [.eps 2697238398092563171739679723437624108748371039754890443206631879258943366064795510132], []⟩,
  ⟨146217586546163942484823415885994690382986343685813590467453072185, [.eps 2697238398092563171739679723437624108748371039754890443206629404629382945492788210030], []⟩,
  ⟨45252151208292920325921702490933282199278910582112384022013395274701438064229712758980897134, [.eps 11584550709322987603435955837678920243015401109020770309635429190323568144442806466299110061428, .cls 8 45252151208292920325921702490933282199278910582112384022013395274701438064229712758980897134], []⟩,
  ⟨11584550709322987603435955837678920243015401109020770309635429190323568144442806466299110061428, [.eps 146217586546163942484823415885994690382986343685813590467453072185], []⟩,
  ⟨146217586546163942484823415885994690382986343685813590467453072432, [.cls 30 146217586546163942484823415885994690382986343685813590467453072433], []⟩,
  ⟨2697238398092563171739679723437624108748371039754890443206629404629382945492788210030, [.cls 3 11584550709322987603435955837678920243015401109020770309635418663275150751551675970311653650993, .cls 2 11584550709322987603435955837678920243015401109020770309635418663275150751551675970311653650993], []⟩,
  ⟨11584550709322987603435955837678920243015401109020770309635418663275150751551675970311653650993, [.eps 2697238398092563171739679723437624108748371039754890443206629404629382945492788192049, .cls 3 11584550709322987603435955837678920243015401109020770309635418663275150751551675970311653650993, .cls 2 11584550709322987603435955837678920243015401109020770309635418663275150751551675970311653650993, .eps 690493029911696171965358009200031771839582986177251953460897127585122034046153782162804], []⟩,
  ⟨2697238398092563171739679723437624108748371039754890443206629404629382945492788192049, [], [bs "COPY_TO_MINOR"]⟩,
  ⟨690493029911696171965358009200031771839582986177251953460897127585122034046153782162804, [.eps 146217586546163942484823415885994690382986343685813590467453072432], []⟩,
  ⟨146217586546163942484823415885994690382986343685813590467453072433, [.cls 31 146217586546163942484823415885994690382986343685813590467453072434], []⟩,
  ⟨146217586546163942484823415885994690382986343685813590467453072434, [.eps 2697238398092563171739679723437624108748371039754890443206640247146362812440326859118], []⟩,
  ⟨146217586546163942484823415885994690382986343685813590467453072435, [.eps 45252151208292920325921702490933282199278910582112384022013395274701438064229712759031228782], []⟩,
  ⟨2697238398092563171739679723437624108748371039754890443206640247146362812440326859118, [.cls 0 2697238398092563171739679723437624108748371039754890443206640247146362812440326862385], []⟩,
  ⟨2697238398092563171739679723437624108748371039754890443206640247146362812440326862385, [.eps 2697238398092563171739679723437624108748371039754890443206640247146362812440326841137, .eps 690493029911696171965358009200031771839582986177251953460899903269468879984723676329332, .cls 0 2697238398092563171739679723437624108748371039754890443206640247146362812440326862385], []⟩,
  ⟨2697238398092563171739679723437624108748371039754890443206640247146362812440326841137, [], [bs "COPY_TO_VALUE"]⟩,
  ⟨690493029911696171965358009200031771839582986177251953460899903269468879984723676329332, [.eps 146217586546163942484823415885994690382986343685813590467453072435], []⟩,
  ⟨45252151208292920325921702490933282199278910582112384022013395274701438064229712759031228782, [.eps 11584550709322987603435955837678920243015401109020770309635429190323568144442806466311994963316, .cls 8 45252151208292920325921702490933282199278910582112384022013395274701438064229712759031228782], []⟩,
  ⟨11584550709322987603435955837678920243015401109020770309635429190323568144442806466311994963316, [.eps 2697238398092563171739679723437624108748371039754890443206631879258943366064795510132], []⟩,
  ⟨12737348207461333518789336973652799230039941168016982800540679234644117287451908043754460397379669667509605, [.eps 45252151208292920325921702490933282199278910582112384022013395274701438064229712759048005998], []⟩,
  ⟨146217586546163942484823415885994690382986343685813590467453072436, [.eps 2697238398092563171739679723437624108748371039754890443206640247146362812440377190766], []⟩,
  ⟨45252151208292920325921702490933282199278910582112384022013395274701438064229712759048005998, [.eps 11584550709322987603435955837678920243015401109020770309635429190323568144442806466316289930612, .cls 8 45252151208292920325921702490933282199278910582112384022013395274701438064229712759048005998], []⟩,
  ⟨11584550709322987603435955837678920243015401109020770309635429190323568144442806466316289930612, [.eps 146217586546163942484823415885994690382986343685813590467453072436], []⟩,
  ⟨146217586546163942484823415885994690382986343685813590467453072437, [.eps 45252151208292920325921702490933282199278910582112384022013395274701438064229712759081560430], []⟩,
  ⟨2697238398092563171739679723437624108748371039754890443206640247146362812440377190766, [.cls 0 2697238398092563171739679723437624108748371039754890443206640247146362812440377194033], []⟩,
  ⟨2697238398092563171739679723437624108748371039754890443206640247146362812440377194033, [.eps 2697238398092563171739679723437624108748371039754890443206640247146362812440377172785, .eps 690493029911696171965358009200031771839582986177251953460899903269468879984736561231220, .cls 0 2697238398092563171739679723437624108748371039754890443206640247146362812440377194033], []⟩,
  ⟨2697238398092563171739679723437624108748371039754890443206640247146362812440377172785, [], [bs "COPY_TO_VALUE"]⟩,
  ⟨690493029911696171965358009200031771839582986177251953460899903269468879984736561231220, [.eps 146217586546163942484823415885994690382986343685813590467453072437], []⟩,
  ⟨45252151208292920325921702490933282199278910582112384022013395274701438064229712759081560430, [.eps 11584550709322987603435955837678920243015401109020770309635429190323568144442806466324879865204, .cls 8 45252151208292920325921702490933282199278910582112384022013395274701438064229712759081560430], []⟩,
  ⟨11584550709322987603435955837678920243015401109020770309635429190323568144442806466324879865204, [.eps 12737348207461333518789336973652799230039941168016982800540662397668604682763196430933788447369265314428261], []⟩,
  ⟨10536087492549074889608123919678219174798324374042540793775905778355259648668164460, [.eps 146217586546163942484823415885994690382986343685813590467458069876, .eps 146217586546163942484823415885994690382986343685813590467453072438], []⟩,
  ⟨146217586546163942484823415885994690382986343685813590467453072438, [], [bs "GOT_NAMEVALUE"]⟩,
  ⟨690493029911696171965358009200031771839582986177251953460897761090289503697214561482085, [.eps 146217586546163942484823415885994690382986343685813590467458069876, .eps 146217586546163942484823415885994690382986343685813590467453072439], []⟩,
  ⟨146217586546163942484823415885994690382986343685813590467453072439, [], [bs "GOT_NAMEVALUE_CONT"]⟩,
  ⟨2697238398092563171739679723437624108748371039754890443206631879258943366064795510132, [.eps 146217586546163942484823415885994690382986343685813590467458069876, .eps 146217586546163942484823415885994690382986343685813590467453072440], []⟩,
  ⟨146217586546163942484823415885994690382986343685813590467453072440, [], [bs "GOT_NAMEVALUE_CSET"]⟩,
  ⟨12737348207461333518789336973652799230039941168016982800540662397668604682763196430933788447369265314428261, [.eps 146217586546163942484823415885994690382986343685813590467458069876, .eps 146217586546163942484823415885994690382986343685813590467453072441], []⟩,
  ⟨146217586546163942484823415885994690382986343685813590467453072441, [], [bs "GOT_NAMEVALUE_CCONT"]⟩,
  ⟨146217586546163942484823415885994690382986343685813590467458069876, [.eps 1845525402912616395719345832052356468], []⟩,
  ⟨519469219803752730814577688128944609441666741201262, [.cls 2 8715247305999037175466025822519939564638482317170935948593], []⟩,
  ⟨8715247305999037175466025822519939564638482317170935948593, [.eps 132984120269760699088531888161009820017066685747918196, .cls 9 8715247305999037175466025822519939564638482317170935948594, .cls 2 8715247305999037175466025822519939564638482317170935948593, .eps 519469219803752730814577688128944609441666741183282, .eps 519469219803752730814577688128944609441666741183281], []⟩,
  ⟨519469219803752730814577688128944609441666741183281, [], [bs "COPY_TO_NAME"]⟩,
  ⟨519469219803752730814577688128944609441666741183282, [], [bs "GOT_NAME"]⟩,
  ⟨8715247305999037175466025822519939564638482317170935948594, [.eps 132984120269760699088531888161009820017066685747918196, .cls 2 8715247305999037175466025822519939564638482317170935948593, .cls 10 8715247305999037175466025822519939564638482317170935948594, .eps 519469219803752730814577688128944609441666741183284, .eps 519469219803752730814577688128944609441666741183283], []⟩,
  ⟨519469219803752730814577688128944609441666741183283, [], [bs "COPY_TO_NAME"]⟩,
  ⟨519469219803752730814577688128944609441666741183284, [], [bs "GOT_NAME_TRAILING_SPACE"]⟩,
  ⟨132984120269760699088531888161009820017066685747918196, [.eps 1845525402912616395719345832052356468], []⟩,
  ⟨146217586546163942484823415885989497851533392322883099968530180462, [.eps 2697238398092563171739679723437528323449563758753311573217014308978106773123850201454], []⟩,
  ⟨2697238398092563171739679723437528323449563758753311573217014308978106773123850201454, [.cls 2 45252151208292920325921702490931675188631196286376198979161663936816436603761829602701174065], []⟩,
  ⟨45252151208292920325921702490931675188631196286376198979161663936816436603761829602701174065, [.cls 2 45252151208292920325921702490931675188631196286376198979161663936816436603761829602701174065, .eps 690493029911696171965358009200007250803088322240847762743555663098395333919705651967348], []⟩,
  ⟨690493029911696171965358009200007250803088322240847762743555663098395333919705651967348, [.eps 37431702155817969276114794466813311449992548434658073591943726002031], []⟩,
  ⟨37431702155817969276114794466813311449992548434658073591943726002031, [.cls 32 37431702155817969276114794466813311449992548434658073591943725736306], []⟩,
  ⟨37431702155817969276114794466813311449992548434658073591943725736306, [.eps 2697238398092563171739679723437528323449563758753311573217014309125968956089695103342], []⟩,
  ⟨2697238398092563171739679723437528323449563758753311573217014309125968956089695103342, [.cls 3 11584550709322987603435955837678508848289586249312306938665385968460071010716500515843654775345, .cls 2 11584550709322987603435955837678508848289586249312306938665385968460071010716500515843654775345], []⟩,
  ⟨11584550709322987603435955837678508848289586249312306938665385968460071010716500515843654775345, [.eps 2697238398092563171739679723437528323449563758753311573217014309125968956089695085361, .cls 3 11584550709322987603435955837678508848289586249312306938665385968460071010716500515843654775345, .cls 2 11584550709322987603435955837678508848289586249312306938665385968460071010716500515843654775345, .eps 690493029911696171965358009200007250803088322240847762743555663136248052758961946850676], []⟩,
  ⟨2697238398092563171739679723437528323449563758753311573217014309125968956089695085361, [], [bs "COPY_TO_MINOR"]⟩,
  ⟨690493029911696171965358009200007250803088322240847762743555663136248052758961946850676, [.eps 37431702155817969276114794466813311449992548434658073591943726593396], []⟩,
  ⟨37431702155817969276114794466813311449992548434658073591943726593396, [.eps 146217586546163942484823415885989497851533392322883099968530162481, .eps 1845525402912616395719345832052356468], []⟩,
  ⟨146217586546163942484823415885989497851533392322883099968530162481, [], [bs "GOT_MAJORMINOR"]⟩,
  ⟨1845525402912616395719345832052356468, [.eps 74549], []⟩, ⟨74550, [.cls 33 74551], []⟩,
  ⟨29111538763117749496338833107310, [.eps 7452553923358143871062741275866484, .cls 8 29111538763117749496338833107310], []⟩,
  ⟨7452553923358143871062741275866484, [.eps 74550], []⟩, ⟨74551, [.eps 29111538763117749496338849884526], []⟩, ⟨74552, [.token 0 6164935730], []⟩,
  ⟨29111538763117749496338849884526, [.eps 7452553923358143871062745570833780, .cls 8 29111538763117749496338849884526], []⟩,
  ⟨7452553923358143871062745570833780, [.eps 74552], []⟩], 9, 8⟩

/-- `main` after its third transition. -/
def nvpMain3 : Block := ⟨6130067822, [⟨92526, [.eps 29111538763117749496338866661742, .eps 29111538763117749496338799552878, .eps 29111538763117749496338749221230], []⟩,
  ⟨74545, [.eps 7209083605127407795778694606121326], []⟩,
  ⟨29111538763117749496338749221230, [.eps 7452553923358143871062719801030004, .cls 8 29111538763117749496338749221230], []⟩,
  ⟨7452553923358143871062719801030004, [.eps 74545], []⟩, ⟨74546, [.eps 29111538763117749496338782775662], []⟩,
  ⟨7209083605127407795778694606121326, [.eps 571162447445952900331341464316982771953792786311288156922472814, .eps 519469219803752730814577684502167150597779217082734, .eps 146217586546163942484823414865142397088718001932759277673225546094], []⟩,
  ⟨571162447445952900331341464316982771953792786311288156922472814, [.eps 45252151208292920325921702174996407193607350488358300971002098318016151862582378987474807150, .eps 45252151208292920325921702174996407193607350488358300971002098318016151862582378987424475502, .eps 176766215657394220023131649121079715600028712845149613167976946554750593213212418036885870, .eps 176766215657394220023131649121079715600028712845149613167976946554750593213212417969777006, .eps 176766215657394220023131649121079715600028712845149613167976946554750593213212417919445358], []⟩,
  ⟨571162447445952900331341464316982771953792786311288156922454833, [.eps 41156591767769823787531733773900129739201793643913607385004140128326642207451502], []⟩,
  ⟨176766215657394220023131649121079715600028712845149613167976946554750593213212417919445358, [.eps 45252151208292920325921702174996407193607350488358300971002098318016151862582378987378406772, .cls 8 176766215657394220023131649121079715600028712845149613167976946554750593213212417919445358], []⟩,
  ⟨45252151208292920325921702174996407193607350488358300971002098318016151862582378987378406772, [.eps 571162447445952900331341464316982771953792786311288156922454833], []⟩,
  ⟨571162447445952900331341464316982771953792786311288156922454834, [.eps 176766215657394220023131649121079715600028712845149613167976946554750593213212417952999790], []⟩,
  ⟨41156591767769823787531733773900129739201793643913607385004140128326642207451502, [.cls 2 690493029911696171965358004379217639062612159551365676437409619827203794869151922480433], []⟩,
  ⟨690493029911696171965358004379217639062612159551365676437409619827203794869151922480433, [.eps 41156591767769823787531733773900129739201793643913607385004140128326642207433521, .eps 41156591767769823787531733773900129739201793643913607385004140128326642207433522, .cls 2 690493029911696171965358004379217639062612159551365676437409619827203794869151922480433, .cls 9 690493029911696171965358004379217639062612159551365676437409619827203794869151922480434, .eps 10536087492549074889608123846118433213235659172841883490561059872851620405107979636], []⟩,
  ⟨41156591767769823787531733773900129739201793643913607385004140128326642207433521, [], [bs "COPY_TO_NAME"]⟩,
  ⟨41156591767769823787531733773900129739201793643913607385004140128326642207433522, [], [bs "GOT_NAME"]⟩,
  ⟨690493029911696171965358004379217639062612159551365676437409619827203794869151922480434, [.eps 41156591767769823787531733773900129739201793643913607385004140128326642207433523, .eps 41156591767769823787531733773900129739201793643913607385004140128326642207433524, .cls 10 690493029911696171965358004379217639062612159551365676437409619827203794869151922480434, .cls 2 690493029911696171965358004379217639062612159551365676437409619827203794869151922480433, .eps 10536087492549074889608123846118433213235659172841883490561059872851620405107979636], []⟩,
  ⟨41156591767769823787531733773900129739201793643913607385004140128326642207433523, [], [bs "COPY_TO_NAME"]⟩,
  ⟨41156591767769823787531733773900129739201793643913607385004140128326642207433524, [], [bs "GOT_NAME_TRAILING_SPACE"]⟩,
  ⟨10536087492549074889608123846118433213235659172841883490561059872851620405107979636, [.eps 571162447445952900331341464316982771953792786311288156922454834], []⟩,
  ⟨571162447445952900331341464316982771953792786311288156922454835, [.cls 15 10536087492549074889608123846118433213235659172841883490561078891875499840528802156], []⟩,
  ⟨176766215657394220023131649121079715600028712845149613167976946554750593213212417952999790, [.eps 45252151208292920325921702174996407193607350488358300971002098318016151862582378995968341364, .cls 8 176766215657394220023131649121079715600028712845149613167976946554750593213212417952999790], []⟩,
  ⟨45252151208292920325921702174996407193607350488358300971002098318016151862582378995968341364, [.eps 571162447445952900331341464316982771953792786311288156922454835], []⟩,
  ⟨571162447445952900331341464316982771953792786311288156922454836, [.eps 41156591767769823787531733773900129739201793643913607385004140128326642257783150], []⟩,
  ⟨176766215657394220023131649121079715600028712845149613167976946554750593213212417969777006, [.eps 45252151208292920325921702174996407193607350488358300971002098318016151862582379000263308660, .cls 8 176766215657394220023131649121079715600028712845149613167976946554750593213212417969777006], []⟩,
  ⟨45252151208292920325921702174996407193607350488358300971002098318016151862582379000263308660, [.eps 571162447445952900331341464316982771953792786311288156922454836], []⟩,
  ⟨571162447445952900331341464316982771953792786311288156922454837, [.cls 16 571162447445952900331341464316982771953792786311288156922454838], []⟩,
  ⟨41156591767769823787531733773900129739201793643913607385004140128326642257783150, [.cls 2 690493029911696171965358004379217639062612159551365676437409619827203795713576852612401], []⟩,
  ⟨690493029911696171965358004379217639062612159551365676437409619827203795713576852612401, [.eps 41156591767769823787531733773900129739201793643913607385004140128326642257765169, .eps 41156591767769823787531733773900129739201793643913607385004140128326642257765170, .cls 2 690493029911696171965358004379217639062612159551365676437409619827203795713576852612401, .cls 9 690493029911696171965358004379217639062612159551365676437409619827203795713576852612402, .eps 10536087492549074889608123846118433213235659172841883490561059872851620417992881524], []⟩,
  ⟨41156591767769823787531733773900129739201793643913607385004140128326642257765169, [], [bs "COPY_TO_NAME"]⟩,
  ⟨41156591767769823787531733773900129739201793643913607385004140128326642257765170, [], [bs "GOT_NAME"]⟩,
  ⟨690493029911696171965358004379217639062612159551365676437409619827203795713576852612402, [.eps 41156591767769823787531733773900129739201793643913607385004140128326642257765171, .eps 41156591767769823787531733773900129739201793643913607385004140128326642257765172, .cls 10 690493029911696171965358004379217639062612159551365676437409619827203795713576852612402, .cls 2 690493029911696171965358004379217639062612159551365676437409619827203795713576852612401, .eps 10536087492549074889608123846118433213235659172841883490561059872851620417992881524], []⟩,
  ⟨41156591767769823787531733773900129739201793643913607385004140128326642257765171, [], [bs "COPY_TO_NAME"]⟩,
  ⟨41156591767769823787531733773900129739201793643913607385004140128326642257765172, [], [bs "GOT_NAME_TRAILING_SPACE"]⟩,
  ⟨10536087492549074889608123846118433213235659172841883490561059872851620417992881524, [.eps 571162447445952900331341464316982771953792786311288156922454837], []⟩,
  ⟨571162447445952900331341464316982771953792786311288156922454838, [.eps 2697238398092563171739679704606318902588328748247522173583619275860381177200115607918], []⟩,
  ⟨571162447445952900331341464316982771953792786311288156922454839, [.eps 176766215657394220023131649121079715600028712845149613167976946554750593213212418020108654], []⟩,
  ⟨2697238398092563171739679704606318902588328748247522173583619275860381177200115607918, [.cls 13 690493029911696171965358004379217639062612159551365676437406534620257581363229596022132, .cls 14 2697238398092563171739679704606318902588328748247522173583619275860381177200115607918], []⟩,
  ⟨690493029911696171965358004379217639062612159551365676437406534620257581363229596022132, [.eps 571162447445952900331341464316982771953792786311288156922454839], []⟩,
  ⟨571162447445952900331341464316982771953792786311288156922454840, [.cls 17 690493029911696171965358004379217639062612159551365676437410866257951964910993313527141], []⟩,
  ⟨176766215657394220023131649121079715600028712845149613167976946554750593213212418020108654, [.eps 45252151208292920325921702174996407193607350488358300971002098318016151862582379013148210548, .cls 8 176766215657394220023131649121079715600028712845149613167976946554750593213212418020108654], []⟩,
  ⟨45252151208292920325921702174996407193607350488358300971002098318016151862582379013148210548, [.eps 571162447445952900331341464316982771953792786311288156922454840], []⟩,
  ⟨571162447445952900331341464316982771953792786311288156922454841, [.eps 41156591767769823787531733773900129739201793643913607385004140128326642324892014], []⟩,
  ⟨176766215657394220023131649121079715600028712845149613167976946554750593213212418036885870, [.eps 45252151208292920325921702174996407193607350488358300971002098318016151862582379017443177844, .cls 8 176766215657394220023131649121079715600028712845149613167976946554750593213212418036885870], []⟩,
  ⟨45252151208292920325921702174996407193607350488358300971002098318016151862582379017443177844, [.eps 571162447445952900331341464316982771953792786311288156922454841], []⟩,
  ⟨146217586546163942484823414865147589620170953295689768172148437296, [.cls 18 146217586546163942484823414865147589620170953295689768172148437297], []⟩,
  ⟨41156591767769823787531733773900129739201793643913607385004140128326642324892014, [.cls 2 690493029911696171965358004379217639062612159551365676437409619827203796839476759455025], []⟩,
  ⟨690493029911696171965358004379217639062612159551365676437409619827203796839476759455025, [.eps 41156591767769823787531733773900129739201793643913607385004140128326642324874033, .eps 41156591767769823787531733773900129739201793643913607385004140128326642324874034, .cls 2 690493029911696171965358004379217639062612159551365676437409619827203796839476759455025, .cls 9 690493029911696171965358004379217639062612159551365676437409619827203796839476759455026, .eps 10536087492549074889608123846118433213235659172841883490561059872851620435172750708], []⟩,
  ⟨41156591767769823787531733773900129739201793643913607385004140128326642324874033, [], [bs "COPY_TO_NAME"]⟩,
  ⟨41156591767769823787531733773900129739201793643913607385004140128326642324874034, [], [bs "GOT_NAME"]⟩,
  ⟨690493029911696171965358004379217639062612159551365676437409619827203796839476759455026, [.eps 41156591767769823787531733773900129739201793643913607385004140128326642324874035, .eps 41156591767769823787531733773900129739201793643913607385004140128326642324874036, .cls 10 690493029911696171965358004379217639062612159551365676437409619827203796839476759455026, .cls 2 690493029911696171965358004379217639062612159551365676437409619827203796839476759455025, .eps 10536087492549074889608123846118433213235659172841883490561059872851620435172750708], []⟩,
  ⟨41156591767769823787531733773900129739201793643913607385004140128326642324874035, [], [bs "COPY_TO_NAME"]⟩,
  ⟨41156591767769823787531733773900129739201793643913607385004140128326642324874036, [], [bs "GOT_NAME_TRAILING_SPACE"]⟩,
  ⟨10536087492549074889608123846118433213235659172841883490561059872851620435172750708, [.eps 146217586546163942484823414865147589620170953295689768172148437296], []⟩,
  ⟨146217586546163942484823414865147589620170953295689768172148437297, [.eps 45252151208292920325921702174996407193607350488358300971002098318016151862582378987407698286], []⟩,
  ⟨146217586546163942484823414865147589620170953295689768172148437298, [.cls 19 2697238398092563171739679704606318902588328748247522173583636196320124855181118760308], []⟩,
  ⟨45252151208292920325921702174996407193607350488358300971002098318016151862582378987407698286, [.eps 11584550709322987603435955756799080241563481725019725048576537169412134876821089020776371156340, .cls 8 45252151208292920325921702174996407193607350488358300971002098318016151862582378987407698286], []⟩,
  ⟨11584550709322987603435955756799080241563481725019725048576537169412134876821089020776371156340, [.eps 146217586546163942484823414865147589620170953295689768172148437298], []⟩,
  ⟨146217586546163942484823414865147589620170953295689768172148437299, [.eps 10536087492549074889608123846118433213235659172841883490561059872851620400875858286], []⟩,
  ⟨45252151208292920325921702174996407193607350488358300971002098318016151862582378987424475502, [.eps 11584550709322987603435955756799080241563481725019725048576537169412134876821089020780666123636, .cls 8 45252151208292920325921702174996407193607350488358300971002098318016151862582378987424475502], []⟩,
  ⟨11584550709322987603435955756799080241563481725019725048576537169412134876821089020780666123636, [.eps 146217586546163942484823414865147589620170953295689768172148437299], []⟩,
  ⟨146217586546163942484823414865147589620170953295689768172148437300, [.cls 20 146217586546163942484823414865147589620170953295689768172148437301], []⟩,
  ⟨10536087492549074889608123846118433213235659172841883490561059872851620400875858286, [.cls 2 176766215657394220023131649121079715600028712845149613167976862675764171415500884913513777], []⟩,
  ⟨176766215657394220023131649121079715600028712845149613167976862675764171415500884913513777, [.eps 10536087492549074889608123846118433213235659172841883490561059872851620400875840305, .eps 10536087492549074889608123846118433213235659172841883490561059872851620400875840306, .cls 2 176766215657394220023131649121079715600028712845149613167976862675764171415500884913513777, .cls 9 176766215657394220023131649121079715600028712845149613167976862675764171415500884913513778, .eps 2697238398092563171739679704606318902588328748247522173583631327450014822624220116340], []⟩,
  ⟨10536087492549074889608123846118433213235659172841883490561059872851620400875840305, [], [bs "COPY_TO_NAME"]⟩,
  ⟨10536087492549074889608123846118433213235659172841883490561059872851620400875840306, [], [bs "GOT_NAME"]⟩,
  ⟨176766215657394220023131649121079715600028712845149613167976862675764171415500884913513778, [.eps 10536087492549074889608123846118433213235659172841883490561059872851620400875840307, .eps 10536087492549074889608123846118433213235659172841883490561059872851620400875840308, .cls 10 176766215657394220023131649121079715600028712845149613167976862675764171415500884913513778, .cls 2 176766215657394220023131649121079715600028712845149613167976862675764171415500884913513777, .eps 2697238398092563171739679704606318902588328748247522173583631327450014822624220116340], []⟩,
  ⟨10536087492549074889608123846118433213235659172841883490561059872851620400875840307, [], [bs "COPY_TO_NAME"]⟩,
  ⟨10536087492549074889608123846118433213235659172841883490561059872851620400875840308, [], [bs "GOT_NAME_TRAILING_SPACE"]⟩,
  ⟨2697238398092563171739679704606318902588328748247522173583631327450014822624220116340, [.eps 146217586546163942484823414865147589620170953295689768172148437300], []⟩,
  ⟨146217586546163942484823414865147589620170953295689768172148437301, [.cls 21 146217586546163942484823414865147589620170953295689768172148437302], []⟩,
  ⟨146217586546163942484823414865147589620170953295689768172148437302, [.cls 22 146217586546163942484823414865147589620170953295689768172148437303], []⟩,
  ⟨146217586546163942484823414865147589620170953295689768172148437303, [.eps 45252151208292920325921702174996407193607350488358300971002098318016151862582378987458029934], []⟩,
  ⟨146217586546163942484823414865147589620170953295689768172148437304, [.cls 23 2697238398092563171739679704606318902588328748247522173583636196320124855181118760308], []⟩,
  ⟨45252151208292920325921702174996407193607350488358300971002098318016151862582378987458029934, [.eps 11584550709322987603435955756799080241563481725019725048576537169412134876821089020789256058228, .cls 8 45252151208292920325921702174996407193607350488358300971002098318016151862582378987458029934], []⟩,
  ⟨11584550709322987603435955756799080241563481725019725048576537169412134876821089020789256058228, [.eps 146217586546163942484823414865147589620170953295689768172148437304], []⟩,
  ⟨146217586546163942484823414865147589620170953295689768172148437305, [.eps 10536087492549074889608123846118433213235659172841883490561059872851620400926189934], []⟩,
  ⟨45252151208292920325921702174996407193607350488358300971002098318016151862582378987474807150, [.eps 11584550709322987603435955756799080241563481725019725048576537169412134876821089020793551025524, .cls 8 45252151208292920325921702174996407193607350488358300971002098318016151862582378987474807150], []⟩,
  ⟨11584550709322987603435955756799080241563481725019725048576537169412134876821089020793551025524, [.eps 146217586546163942484823414865147589620170953295689768172148437305], []⟩,
  ⟨146217586546163942484823414865147589620170953295689768172148437552, [.cls 24 146217586546163942484823414865147589620170953295689768172148437553], []⟩,
  ⟨10536087492549074889608123846118433213235659172841883490561059872851620400926189934, [.cls 2 176766215657394220023131649121079715600028712845149613167976862675764171416345309843645745], []⟩,
  ⟨176766215657394220023131649121079715600028712845149613167976862675764171416345309843645745, [.eps 10536087492549074889608123846118433213235659172841883490561059872851620400926171953, .eps 10536087492549074889608123846118433213235659172841883490561059872851620400926171954, .cls 2 176766215657394220023131649121079715600028712845149613167976862675764171416345309843645745, .cls 9 176766215657394220023131649121079715600028712845149613167976862675764171416345309843645746, .eps 2697238398092563171739679704606318902588328748247522173583631327450014822637105018228], []⟩,
  ⟨10536087492549074889608123846118433213235659172841883490561059872851620400926171953, [], [bs "COPY_TO_NAME"]⟩,
  ⟨10536087492549074889608123846118433213235659172841883490561059872851620400926171954, [], [bs "GOT_NAME"]⟩,
  ⟨176766215657394220023131649121079715600028712845149613167976862675764171416345309843645746, [.eps 10536087492549074889608123846118433213235659172841883490561059872851620400926171955, .eps 10536087492549074889608123846118433213235659172841883490561059872851620400926171956, .cls 10 176766215657394220023131649121079715600028712845149613167976862675764171416345309843645746, .cls 2 176766215657394220023131649121079715600028712845149613167976862675764171416345309843645745, .eps 2697238398092563171739679704606318902588328748247522173583631327450014822637105018228], []⟩,
  ⟨10536087492549074889608123846118433213235659172841883490561059872851620400926171955, [], [bs "COPY_TO_NAME"]⟩,
  ⟨10536087492549074889608123846118433213235659172841883490561059872851620400926171956, [], [bs "GOT_NAME_TRAILING_SPACE"]⟩,
  ⟨2697238398092563171739679704606318902588328748247522173583631327450014822637105018228, [.eps 146217586546163942484823414865147589620170953295689768172148437552], []⟩,
  ⟨146217586546163942484823414865147589620170953295689768172148437553, [.cls 25 146217586546163942484823414865147589620170953295689768172148437554], []⟩,
  ⟨146217586546163942484823414865147589620170953295689768172148437554, [.cls 26 146217586546163942484823414865147589620170953295689768172148437555], []⟩,
  ⟨146217586546163942484823414865147589620170953295689768172148437555, [.eps 45252151208292920325921702174996407193607350488358300971002098318016151862582378987508361582], []⟩,
  ⟨146217586546163942484823414865147589620170953295689768172148437556, [.cls 27 12737348207461333518789336884724474695781103082714466313868366003332769064239954861451035879302386104038757], []⟩,
  ⟨45252151208292920325921702174996407193607350488358300971002098318016151862582378987508361582, [.eps 11584550709322987603435955756799080241563481725019725048576537169412134876821089020802140960116, .cls 8 45252151208292920325921702174996407193607350488358300971002098318016151862582378987508361582], []⟩,
  ⟨11584550709322987603435955756799080241563481725019725048576537169412134876821089020802140960116, [.eps 146217586546163942484823414865147589620170953295689768172148437556], []⟩,
  ⟨10536087492549074889608123846118433213235659172841883490561078891875499840528802156, [.eps 45252151208292920325921702174996407193607350488358300971002098318016151862582378991752997230, .eps 45252151208292920325921702174996407193607350488358300971002098318016151862582378991702665582, .eps 45252151208292920325921702174996407193607350488358300971002098318016151862582378987525138798], []⟩,
  ⟨146217586546163942484823414865147589620170953295689768172148437557, [.eps 690493029911696171965358004379217639062612159551365676437410573613142123291228599380334], []⟩,
  ⟨45252151208292920325921702174996407193607350488358300971002098318016151862582378987525138798, [.eps 11584550709322987603435955756799080241563481725019725048576537169412134876821089020806435927412, .cls 8 45252151208292920325921702174996407193607350488358300971002098318016151862582378987525138798], []⟩,
  ⟨11584550709322987603435955756799080241563481725019725048576537169412134876821089020806435927412, [.eps 146217586546163942484823414865147589620170953295689768172148437557], []⟩,
  ⟨146217586546163942484823414865147589620170953295689768172148437558, [.eps 45252151208292920325921702174996407193607350488358300971002098318016151862582378987558693230], []⟩,
  ⟨690493029911696171965358004379217639062612159551365676437410573613142123291228599380334, [.cls 11 176766215657394220023131649121079715600028712845149613167977106844964383562554521441891888], []⟩,
  ⟨176766215657394220023131649121079715600028712845149613167977106844964383562554521441891888, [.eps 3260761141110101380810070242489465522119962389174903376350300314877147507991500382952304667518327484276697454, .cls 1 176766215657394220023131649121079715600028712845149613167977106844964383562554521441891889, .cls 0 176766215657394220023131649121079715600028712845149613167977106844964383562554521441891889], []⟩,
  ⟨3260761141110101380810070242489465522119962389174903376350300314877147507991500382952304667518327484276697454, [.cls 6 3260761141110101380810070242489465522119962389174903376350300314877147507991500382952304667518327484276679474, .cls 4 3260761141110101380810070242489465522119962389174903376350300314877147507991500382952304667518327484276679473], []⟩,
  ⟨3260761141110101380810070242489465522119962389174903376350300314877147507991500382952304667518327484276679473, [.cls 5 834754852124185953487377982077303173662710371628775264345676880608549762045824098035789994884691835974834943348], []⟩,
  ⟨3260761141110101380810070242489465522119962389174903376350300314877147507991500382952304667518327484276679474, [.cls 7 834754852124185953487377982077303173662710371628775264345676880608549762045824098035789994884691835974834943348], []⟩,
  ⟨834754852124185953487377982077303173662710371628775264345676880608549762045824098035789994884691835974834943348, [.eps 176766215657394220023131649121079715600028712845149613167977106844964383562554521441891889], []⟩,
  ⟨176766215657394220023131649121079715600028712845149613167977106844964383562554521441891889, [.eps 690493029911696171965358004379217639062612159551365676437410573613142123291228599362353, .eps 3260761141110101380810070242489465522119962389174903376350300314877147507991500382952304667518327484293474670, .cls 1 176766215657394220023131649121079715600028712845149613167977106844964383562554521441891889, .cls 0 176766215657394220023131649121079715600028712845149613167977106844964383562554521441891889, .eps 176766215657394220023131649121079715600028712845149613167977106844964383562554521441891890], []⟩,
  ⟨690493029911696171965358004379217639062612159551365676437410573613142123291228599362353, [], [bs "COPY_TO_VALUE"]⟩,
  ⟨3260761141110101380810070242489465522119962389174903376350300314877147507991500382952304667518327484293474670, [.cls 6 3260761141110101380810070242489465522119962389174903376350300314877147507991500382952304667518327484293456690, .cls 4 3260761141110101380810070242489465522119962389174903376350300314877147507991500382952304667518327484293456689], []⟩,
  ⟨3260761141110101380810070242489465522119962389174903376350300314877147507991500382952304667518327484293456689, [.cls 5 834754852124185953487377982077303173662710371628775264345676880608549762045824098035789994884691835979129910644], []⟩,
  ⟨3260761141110101380810070242489465522119962389174903376350300314877147507991500382952304667518327484293456690, [.cls 7 834754852124185953487377982077303173662710371628775264345676880608549762045824098035789994884691835979129910644], []⟩,
  ⟨834754852124185953487377982077303173662710371628775264345676880608549762045824098035789994884691835979129910644, [.eps 176766215657394220023131649121079715600028712845149613167977106844964383562554521441891889], []⟩,
  ⟨176766215657394220023131649121079715600028712845149613167977106844964383562554521441891890, [.cls 12 176766215657394220023131649121079715600028712845149613167977106844964383562554521441760628], []⟩,
  ⟨176766215657394220023131649121079715600028712845149613167977106844964383562554521441760628, [.eps 146217586546163942484823414865147589620170953295689768172148437558], []⟩,
  ⟨45252151208292920325921702174996407193607350488358300971002098318016151862582378987558693230, [.eps 11584550709322987603435955756799080241563481725019725048576537169412134876821089020815025862004, .cls 8 45252151208292920325921702174996407193607350488358300971002098318016151862582378987558693230], []⟩,
  ⟨11584550709322987603435955756799080241563481725019725048576537169412134876821089020815025862004, [.eps 10536087492549074889608123846118433213235659172841883490561064964655781783855260012], []⟩,
  ⟨146217586546163942484823414865147589620170953295689768172148437559, [.eps 2697238398092563171739679704606318902588328748247522173583640998839296479043861244270], []⟩,
  ⟨45252151208292920325921702174996407193607350488358300971002098318016151862582378991702665582, [.eps 11584550709322987603435955756799080241563481725019725048576537169412134876821089021875882784116, .cls 8 45252151208292920325921702174996407193607350488358300971002098318016151862582378991702665582], []⟩,
  ⟨11584550709322987603435955756799080241563481725019725048576537169412134876821089021875882784116, [.eps 146217586546163942484823414865147589620170953295689768172148437559], []⟩,
  ⟨146217586546163942484823414865147589620170953295689768172148437560, [.eps 45252151208292920325921702174996407193607350488358300971002098318016151862582378991736220014], []⟩,
  ⟨2697238398092563171739679704606318902588328748247522173583640998839296479043861244270, [.cls 0 2697238398092563171739679704606318902588328748247522173583640998839296479043861247537], []⟩,
  ⟨2697238398092563171739679704606318902588328748247522173583640998839296479043861247537, [.eps 2697238398092563171739679704606318902588328748247522173583640998839296479043861226289, .eps 690493029911696171965358004379217639062612159551365676437412095702859898635228478928244, .cls 0 2697238398092563171739679704606318902588328748247522173583640998839296479043861247537], []⟩,
  ⟨2697238398092563171739679704606318902588328748247522173583640998839296479043861226289, [], [bs "COPY_TO_VALUE"]⟩,
  ⟨690493029911696171965358004379217639062612159551365676437412095702859898635228478928244, [.eps 146217586546163942484823414865147589620170953295689768172148437560], []⟩,
  ⟨45252151208292920325921702174996407193607350488358300971002098318016151862582378991736220014, [.eps 11584550709322987603435955756799080241563481725019725048576537169412134876821089021884472718708, .cls 8 45252151208292920325921702174996407193607350488358300971002098318016151862582378991736220014], []⟩,
  ⟨11584550709322987603435955756799080241563481725019725048576537169412134876821089021884472718708, [.eps 10536087492549074889608123846118433213235659172841883490561064964655781783855260012], []⟩,
  ⟨146217586546163942484823414865147589620170953295689768172148437561, [.eps 146217586546163942484823414865147589620170953295689768172148437808], []⟩,
  ⟨45252151208292920325921702174996407193607350488358300971002098318016151862582378991752997230, [.eps 11584550709322987603435955756799080241563481725019725048576537169412134876821089021888767686004, .cls 8 45252151208292920325921702174996407193607350488358300971002098318016151862582378991752997230], []⟩,
  ⟨11584550709322987603435955756799080241563481725019725048576537169412134876821089021888767686004, [.eps 146217586546163942484823414865147589620170953295689768172148437561], []⟩,
  ⟨146217586546163942484823414865147589620170953295689768172148437808, [.token 0 10536087492549074889608123846118433213235659172841883490561064964655781783855260012], []⟩,
  ⟨690493029911696171965358004379217639062612159551365676437410866257951964910993313527141, [.eps 45252151208292920325921702174996407193607350488358300971002098318016151862582378991820106094, .eps 45252151208292920325921702174996407193607350488358300971002098318016151862582378991769774446], []⟩,
  ⟨146217586546163942484823414865147589620170953295689768172148437809, [.eps 690493029911696171965358004379217639062612159551365676437410573613142123291232844015982], []⟩,
  ⟨45252151208292920325921702174996407193607350488358300971002098318016151862582378991769774446, [.eps 11584550709322987603435955756799080241563481725019725048576537169412134876821089021893062653300, .cls 8 45252151208292920325921702174996407193607350488358300971002098318016151862582378991769774446], []⟩,
  ⟨11584550709322987603435955756799080241563481725019725048576537169412134876821089021893062653300, [.eps 146217586546163942484823414865147589620170953295689768172148437809], []⟩,
  ⟨146217586546163942484823414865147589620170953295689768172148437810, [.eps 45252151208292920325921702174996407193607350488358300971002098318016151862582378991803328878], []⟩,
  ⟨690493029911696171965358004379217639062612159551365676437410573613142123291232844015982, [.cls 11 176766215657394220023131649121079715600028712845149613167977106844964383562555608068617776], []⟩,
  ⟨176766215657394220023131649121079715600028712845149613167977106844964383562555608068617776, [.eps 3260761141110101380810070242489465522119962389174903376350300314877147507991520427677420776395738650896132462, .cls 1 176766215657394220023131649121079715600028712845149613167977106844964383562555608068617777, .cls 0 176766215657394220023131649121079715600028712845149613167977106844964383562555608068617777], []⟩,
  ⟨3260761141110101380810070242489465522119962389174903376350300314877147507991520427677420776395738650896132462, [.cls 6 3260761141110101380810070242489465522119962389174903376350300314877147507991520427677420776395738650896114482, .cls 4 3260761141110101380810070242489465522119962389174903376350300314877147507991520427677420776395738650896114481], []⟩,
  ⟨3260761141110101380810070242489465522119962389174903376350300314877147507991520427677420776395738650896114481, [.cls 5 834754852124185953487377982077303173662710371628775264345676880608549762045829229485419718757309094629410305396], []⟩,
  ⟨3260761141110101380810070242489465522119962389174903376350300314877147507991520427677420776395738650896114482, [.cls 7 834754852124185953487377982077303173662710371628775264345676880608549762045829229485419718757309094629410305396], []⟩,
  ⟨834754852124185953487377982077303173662710371628775264345676880608549762045829229485419718757309094629410305396, [.eps 176766215657394220023131649121079715600028712845149613167977106844964383562555608068617777], []⟩,
  ⟨176766215657394220023131649121079715600028712845149613167977106844964383562555608068617777, [.eps 690493029911696171965358004379217639062612159551365676437410573613142123291232843998001, .eps 3260761141110101380810070242489465522119962389174903376350300314877147507991520427677420776395738650912909678, .cls 1 176766215657394220023131649121079715600028712845149613167977106844964383562555608068617777, .cls 0 176766215657394220023131649121079715600028712845149613167977106844964383562555608068617777, .eps 176766215657394220023131649121079715600028712845149613167977106844964383562555608068617778], []⟩,
  ⟨690493029911696171965358004379217639062612159551365676437410573613142123291232843998001, [], [bs "COPY_TO_VALUE"]⟩,
  ⟨3260761141110101380810070242489465522119962389174903376350300314877147507991520427677420776395738650912909678, [.cls 6 3260761141110101380810070242489465522119962389174903376350300314877147507991520427677420776395738650912891698, .cls 4 3260761141110101380810070242489465522119962389174903376350300314877147507991520427677420776395738650912891697], []⟩,
  ⟨3260761141110101380810070242489465522119962389174903376350300314877147507991520427677420776395738650912891697, [.cls 5 834754852124185953487377982077303173662710371628775264345676880608549762045829229485419718757309094633705272692], []⟩,
  ⟨3260761141110101380810070242489465522119962389174903376350300314877147507991520427677420776395738650912891698, [.cls 7 834754852124185953487377982077303173662710371628775264345676880608549762045829229485419718757309094633705272692], []⟩,
  ⟨834754852124185953487377982077303173662710371628775264345676880608549762045829229485419718757309094633705272692, [.eps 176766215657394220023131649121079715600028712845149613167977106844964383562555608068617777], []⟩,
  ⟨176766215657394220023131649121079715600028712845149613167977106844964383562555608068617778, [.cls 12 176766215657394220023131649121079715600028712845149613167977106844964383562555608068486516], []⟩,
  ⟨176766215657394220023131649121079715600028712845149613167977106844964383562555608068486516, [.eps 146217586546163942484823414865147589620170953295689768172148437810], []⟩,
  ⟨45252151208292920325921702174996407193607350488358300971002098318016151862582378991803328878, [.eps 11584550709322987603435955756799080241563481725019725048576537169412134876821089021901652587892, .cls 8 45252151208292920325921702174996407193607350488358300971002098318016151862582378991803328878], []⟩,
  ⟨11584550709322987603435955756799080241563481725019725048576537169412134876821089021901652587892, [.eps 690493029911696171965358004379217639062612159551365676437409953523680522348836055577957], []⟩,
  ⟨146217586546163942484823414865147589620170953295689768172148437811, [.eps 2697238398092563171739679704606318902588328748247522173583640998839296479043978684782], []⟩,
  ⟨45252151208292920325921702174996407193607350488358300971002098318016151862582378991820106094, [.eps 11584550709322987603435955756799080241563481725019725048576537169412134876821089021905947555188, .cls 8 45252151208292920325921702174996407193607350488358300971002098318016151862582378991820106094], []⟩,
  ⟨11584550709322987603435955756799080241563481725019725048576537169412134876821089021905947555188, [.eps 146217586546163942484823414865147589620170953295689768172148437811], []⟩,
  ⟨146217586546163942484823414865147589620170953295689768172148437812, [.eps 45252151208292920325921702174996407193607350488358300971002098318016151862582378991853660526], []⟩,
  ⟨2697238398092563171739679704606318902588328748247522173583640998839296479043978684782, [.cls 0 2697238398092563171739679704606318902588328748247522173583640998839296479043978688049], []⟩,
  ⟨2697238398092563171739679704606318902588328748247522173583640998839296479043978688049, [.eps 2697238398092563171739679704606318902588328748247522173583640998839296479043978666801, .eps 690493029911696171965358004379217639062612159551365676437412095702859898635258543699316, .cls 0 2697238398092563171739679704606318902588328748247522173583640998839296479043978688049], []⟩,
  ⟨2697238398092563171739679704606318902588328748247522173583640998839296479043978666801, [], [bs "COPY_TO_VALUE"]⟩,
  ⟨690493029911696171965358004379217639062612159551365676437412095702859898635258543699316, [.eps 146217586546163942484823414865147589620170953295689768172148437812], []⟩,
  ⟨45252151208292920325921702174996407193607350488358300971002098318016151862582378991853660526, [.eps 11584550709322987603435955756799080241563481725019725048576537169412134876821089021914537489780, .cls 8 45252151208292920325921702174996407193607350488358300971002098318016151862582378991853660526], []⟩,
  ⟨11584550709322987603435955756799080241563481725019725048576537169412134876821089021914537489780, [.eps 690493029911696171965358004379217639062612159551365676437409953523680522348836055577957], []⟩,
  ⟨2697238398092563171739679704606318902588328748247522173583636196320124855181118760308, [.eps 45252151208292920325921702174996407193607350488358300971002098318016151862582378996047964526, .eps 45252151208292920325921702174996407193607350488358300971002098318016151862582378995997632878], []⟩,
  ⟨146217586546163942484823414865147589620170953295689768172148437813, [.cls 28 146217586546163942484823414865147589620170953295689768172148437814], []⟩,
  ⟨45252151208292920325921702174996407193607350488358300971002098318016151862582378995997632878, [.eps 11584550709322987603435955756799080241563481725019725048576537169412134876821089022975394411892, .cls 8 45252151208292920325921702174996407193607350488358300971002098318016151862582378995997632878], []⟩,
  ⟨11584550709322987603435955756799080241563481725019725048576537169412134876821089022975394411892, [.eps 146217586546163942484823414865147589620170953295689768172148437813], []⟩,
  ⟨146217586546163942484823414865147589620170953295689768172148437814, [.cls 29 146217586546163942484823414865147589620170953295689768172148437815], []⟩,
  ⟨146217586546163942484823414865147589620170953295689768172148437815, [.eps 2697238398092563171739679704606318902588328748247522173583640998839296479048156211566], []⟩,
  ⟨146217586546163942484823414865147589620170953295689768172148437816, [.eps 45252151208292920325921702174996407193607350488358300971002098318016151862582378996031187310], []⟩,
  ⟨2697238398092563171739679704606318902588328748247522173583640998839296479048156211566, [.cls 0 2697238398092563171739679704606318902588328748247522173583640998839296479048156214833], []⟩,
  ⟨2697238398092563171739679704606318902588328748247522173583640998839296479048156214833, [.eps 2697238398092563171739679704606318902588328748247522173583640998839296479048156193585, .eps 690493029911696171965358004379217639062612159551365676437412095702859898636327990556020, .cls 0 2697238398092563171739679704606318902588328748247522173583640998839296479048156214833], []⟩,
  ⟨2697238398092563171739679704606318902588328748247522173583640998839296479048156193585, [], [bs "COPY_TO_VALUE"]⟩,
  ⟨690493029911696171965358004379217639062612159551365676437412095702859898636327990556020, [.eps 146217586546163942484823414865147589620170953295689768172148437816], []⟩,
  ⟨45252151208292920325921702174996407193607350488358300971002098318016151862582378996031187310, [.eps 11584550709322987603435955756799080241563481725019725048576537169412134876821089022983984346484, .cls 8 45252151208292920325921702174996407193607350488358300971002098318016151862582378996031187310], []⟩,
  ⟨11584550709322987603435955756799080241563481725019725048576537169412134876821089022983984346484, [.eps 2697238398092563171739679704606318902588328748247522173583632630951877032672691971444], []⟩,
  ⟨146217586546163942484823414865147589620170953295689768172148437817, [.eps 2697238398092563171739679704606318902588328748247522173583630156322316612100684671342], []⟩,
  ⟨45252151208292920325921702174996407193607350488358300971002098318016151862582378996047964526, [.eps 11584550709322987603435955756799080241563481725019725048576537169412134876821089022988279313780, .cls 8 45252151208292920325921702174996407193607350488358300971002098318016151862582378996047964526], []⟩,
  ⟨11584550709322987603435955756799080241563481725019725048576537169412134876821089022988279313780, [.eps 146217586546163942484823414865147589620170953295689768172148437817], []⟩,
  ⟨146217586546163942484823414865147589620170953295689768172148438064, [.cls 30 146217586546163942484823414865147589620170953295689768172148438065], []⟩,
  ⟨2697238398092563171739679704606318902588328748247522173583630156322316612100684671342, [.cls 3 11584550709322987603435955756799080241563481725019725048576526642363717483929958527000822903345, .cls 2 11584550709322987603435955756799080241563481725019725048576526642363717483929958527000822903345], []⟩,
  ⟨11584550709322987603435955756799080241563481725019725048576526642363717483929958527000822903345, [.eps 2697238398092563171739679704606318902588328748247522173583630156322316612100684653361, .cls 3 11584550709322987603435955756799080241563481725019725048576526642363717483929958527000822903345, .cls 2 11584550709322987603435955756799080241563481725019725048576526642363717483929958527000822903345, .eps 690493029911696171965358004379217639062612159551365676437409320018513052697775276258676], []⟩,
  ⟨2697238398092563171739679704606318902588328748247522173583630156322316612100684653361, [], [bs "COPY_TO_MINOR"]⟩,
  ⟨690493029911696171965358004379217639062612159551365676437409320018513052697775276258676, [.eps 146217586546163942484823414865147589620170953295689768172148438064], []⟩,
  ⟨146217586546163942484823414865147589620170953295689768172148438065, [.cls 31 146217586546163942484823414865147589620170953295689768172148438066], []⟩,
  ⟨146217586546163942484823414865147589620170953295689768172148438066, [.eps 2697238398092563171739679704606318902588328748247522173583640998839296479048223320430], []⟩,
  ⟨146217586546163942484823414865147589620170953295689768172148438067, [.eps 45252151208292920325921702174996407193607350488358300971002098318016151862582378996098296174], []⟩,
  ⟨2697238398092563171739679704606318902588328748247522173583640998839296479048223320430, [.cls 0 2697238398092563171739679704606318902588328748247522173583640998839296479048223323697], []⟩,
  ⟨2697238398092563171739679704606318902588328748247522173583640998839296479048223323697, [.eps 2697238398092563171739679704606318902588328748247522173583640998839296479048223302449, .eps 690493029911696171965358004379217639062612159551365676437412095702859898636345170425204, .cls 0 2697238398092563171739679704606318902588328748247522173583640998839296479048223323697], []⟩,
  ⟨2697238398092563171739679704606318902588328748247522173583640998839296479048223302449, [], [bs "COPY_TO_VALUE"]⟩,
  ⟨690493029911696171965358004379217639062612159551365676437412095702859898636345170425204, [.eps 146217586546163942484823414865147589620170953295689768172148438067], []⟩,
  ⟨45252151208292920325921702174996407193607350488358300971002098318016151862582378996098296174, [.eps 11584550709322987603435955756799080241563481725019725048576537169412134876821089023001164215668, .cls 8 45252151208292920325921702174996407193607350488358300971002098318016151862582378996098296174], []⟩,
  ⟨11584550709322987603435955756799080241563481725019725048576537169412134876821089023001164215668, [.eps 2697238398092563171739679704606318902588328748247522173583632630951877032672691971444], []⟩,
  ⟨12737348207461333518789336884724474695781103082714466313868366003332769064239954861451035879302386104038757, [.eps 45252151208292920325921702174996407193607350488358300971002098318016151862582378996115073390], []⟩,
  ⟨146217586546163942484823414865147589620170953295689768172148438068, [.eps 2697238398092563171739679704606318902588328748247522173583640998839296479048273652078], []⟩,
  ⟨45252151208292920325921702174996407193607350488358300971002098318016151862582378996115073390, [.eps 11584550709322987603435955756799080241563481725019725048576537169412134876821089023005459182964, .cls 8 45252151208292920325921702174996407193607350488358300971002098318016151862582378996115073390], []⟩,
  ⟨11584550709322987603435955756799080241563481725019725048576537169412134876821089023005459182964, [.eps 146217586546163942484823414865147589620170953295689768172148438068], []⟩,
  ⟨146217586546163942484823414865147589620170953295689768172148438069, [.eps 45252151208292920325921702174996407193607350488358300971002098318016151862582378996148627822], []⟩,
  ⟨2697238398092563171739679704606318902588328748247522173583640998839296479048273652078, [.cls 0 2697238398092563171739679704606318902588328748247522173583640998839296479048273655345], []⟩,
  ⟨2697238398092563171739679704606318902588328748247522173583640998839296479048273655345, [.eps 2697238398092563171739679704606318902588328748247522173583640998839296479048273634097, .eps 690493029911696171965358004379217639062612159551365676437412095702859898636358055327092, .cls 0 2697238398092563171739679704606318902588328748247522173583640998839296479048273655345], []⟩,
  ⟨2697238398092563171739679704606318902588328748247522173583640998839296479048273634097, [], [bs "COPY_TO_VALUE"]⟩,
  ⟨690493029911696171965358004379217639062612159551365676437412095702859898636358055327092, [.eps 146217586546163942484823414865147589620170953295689768172148438069], []⟩,
  ⟨45252151208292920325921702174996407193607350488358300971002098318016151862582378996148627822, [.eps 11584550709322987603435955756799080241563481725019725048576537169412134876821089023014049117556, .cls 8 45252151208292920325921702174996407193607350488358300971002098318016151862582378996148627822], []⟩,
  ⟨11584550709322987603435955756799080241563481725019725048576537169412134876821089023014049117556, [.eps 12737348207461333518789336884724474695781103082714466313868349166357256459551243248630363929291981750957413], []⟩,
  ⟨10536087492549074889608123846118433213235659172841883490561064964655781783855260012, [.eps 146217586546163942484823414865147589620170953295689768172153435508, .eps 146217586546163942484823414865147589620170953295689768172148438070], []⟩,
  ⟨146217586546163942484823414865147589620170953295689768172148438070, [], [bs "GOT_NAMEVALUE"]⟩,
  ⟨690493029911696171965358004379217639062612159551365676437409953523680522348836055577957, [.eps 146217586546163942484823414865147589620170953295689768172153435508, .eps 146217586546163942484823414865147589620170953295689768172148438071], []⟩,
  ⟨146217586546163942484823414865147589620170953295689768172148438071, [], [bs "GOT_NAMEVALUE_CONT"]⟩,
  ⟨2697238398092563171739679704606318902588328748247522173583632630951877032672691971444, [.eps 146217586546163942484823414865147589620170953295689768172153435508, .eps 146217586546163942484823414865147589620170953295689768172148438072], []⟩,
  ⟨146217586546163942484823414865147589620170953295689768172148438072, [], [bs "GOT_NAMEVALUE_CSET"]⟩,
  ⟨12737348207461333518789336884724474695781103082714466313868349166357256459551243248630363929291981750957413, [.eps 146217586546163942484823414865147589620170953295689768172153435508, .eps 146217586546163942484823414865147589620170953295689768172148438073], []⟩,
  ⟨146217586546163942484823414865147589620170953295689768172148438073, [], [bs "GOT_NAMEVALUE_CCONT"]⟩,
  ⟨146217586546163942484823414865147589620170953295689768172153435508, [.eps 1845525402912616395719345819167454580], []⟩,
  ⟨519469219803752730814577684502167150597779217082734, [.cls 2 8715247305999037175466025761672710753683471045329182090545], []⟩,
  ⟨8715247305999037175466025761672710753683471045329182090545, [.eps 132984120269760699088531887232554790553031479573575028, .cls 9 8715247305999037175466025761672710753683471045329182090546, .cls 2 8715247305999037175466025761672710753683471045329182090545, .eps 519469219803752730814577684502167150597779217064754, .eps 519469219803752730814577684502167150597779217064753], []⟩,
  ⟨519469219803752730814577684502167150597779217064753, [], [bs "COPY_TO_NAME"]⟩,
  ⟨519469219803752730814577684502167150597779217064754, [], [bs "GOT_NAME"]⟩,
  ⟨8715247305999037175466025761672710753683471045329182090546, [.eps 132984120269760699088531887232554790553031479573575028, .cls 2 8715247305999037175466025761672710753683471045329182090545, .cls 10 8715247305999037175466025761672710753683471045329182090546, .eps 519469219803752730814577684502167150597779217064756, .eps 519469219803752730814577684502167150597779217064755], []⟩,
  ⟨519469219803752730814577684502167150597779217064755, [], [bs "COPY_TO_NAME"]⟩,
  ⟨519469219803752730814577684502167150597779217064756, [], [bs "GOT_NAME_TRAILING_SPACE"]⟩,
  ⟨132984120269760699088531887232554790553031479573575028, [.eps 1845525402912616395719345819167454580], []⟩,
  ⟨146217586546163942484823414865142397088718001932759277673225546094, [.eps 2697238398092563171739679704606223117289521467245943303594015060671040439731746662766], []⟩,
  ⟨2697238398092563171739679704606223117289521467245943303594015060671040439731746662766, [.cls 2 45252151208292920325921702174994800182959636192622115928150366980131150402114495839768241457], []⟩,
  ⟨45252151208292920325921702174994800182959636192622115928150366980131150402114495839768241457, [.cls 2 45252151208292920325921702174994800182959636192622115928150366980131150402114495839768241457, .eps 690493029911696171965358004379193118026117495614961485720067855531786352571327146063220], []⟩,
  ⟨690493029911696171965358004379193118026117495614961485720067855531786352571327146063220, [.eps 37431702155817969276114794205476453654711808494786375084345739603823], []⟩,
  ⟨37431702155817969276114794205476453654711808494786375084345739603823, [.cls 32 37431702155817969276114794205476453654711808494786375084345739338098], []⟩,
  ⟨37431702155817969276114794205476453654711808494786375084345739338098, [.eps 2697238398092563171739679704606223117289521467245943303594015060818902622697591564654], []⟩,
  ⟨2697238398092563171739679704606223117289521467245943303594015060818902622697591564654, [.cls 3 11584550709322987603435955756798668846837666865311261677606493947548637743094783072532824027697, .cls 2 11584550709322987603435955756798668846837666865311261677606493947548637743094783072532824027697], []⟩,
  ⟨11584550709322987603435955756798668846837666865311261677606493947548637743094783072532824027697, [.eps 2697238398092563171739679704606223117289521467245943303594015060818902622697591546673, .cls 3 11584550709322987603435955756798668846837666865311261677606493947548637743094783072532824027697, .cls 2 11584550709322987603435955756798668846837666865311261677606493947548637743094783072532824027697, .eps 690493029911696171965358004379193118026117495614961485720067855569639071410583440946548], []⟩,
  ⟨2697238398092563171739679704606223117289521467245943303594015060818902622697591546673, [], [bs "COPY_TO_MINOR"]⟩,
  ⟨690493029911696171965358004379193118026117495614961485720067855569639071410583440946548, [.eps 37431702155817969276114794205476453654711808494786375084345740195188], []⟩,
  ⟨37431702155817969276114794205476453654711808494786375084345740195188, [.eps 146217586546163942484823414865142397088718001932759277673225528113, .eps 1845525402912616395719345819167454580], []⟩,
  ⟨146217586546163942484823414865142397088718001932759277673225528113, [], [bs "GOT_MAJORMINOR"]⟩,
  ⟨1845525402912616395719345819167454580, [.eps 74546], []⟩, ⟨74547, [.token 0 6164935730], []⟩,
  ⟨29111538763117749496338782775662, [.eps 7452553923358143871062728390964596, .cls 8 29111538763117749496338782775662], []⟩,
  ⟨7452553923358143871062728390964596, [.eps 74547], []⟩, ⟨74548, [.eps 7209083605127407795778694656452974], []⟩,
  ⟨29111538763117749496338799552878, [.eps 7452553923358143871062732685931892, .cls 8 29111538763117749496338799552878], []⟩,
  ⟨7452553923358143871062732685931892, [.eps 74548], []⟩, ⟨74549, [.eps 29111538763117749496338833107310], []⟩,
  ⟨7209083605127407795778694656452974, [.eps 571162447445952900331341468304666759308540405022709337763506542, .eps 519469219803752730814577688128944609441666741201262, .eps 146217586546163942484823415885989497851533392322883099968530180462], []⟩,
  ⟨571162447445952900331341468304666759308540405022709337763506542, [.eps 45252151208292920325921702490933282199278910582112384022013395274701438064229712750407739758, .eps 45252151208292920325921702490933282199278910582112384022013395274701438064229712750357408110, .eps 176766215657394220023131650355208133590933244461376500085989825291802492438397315548342638, .eps 176766215657394220023131650355208133590933244461376500085989825291802492438397315481233774, .eps 176766215657394220023131650355208133590933244461376500085989825291802492438397315430902126], []⟩,
  ⟨571162447445952900331341468304666759308540405022709337763488561, [.eps 41156591767769823787531734061243043651555954586103674975687112056840227616876910], []⟩,
  ⟨176766215657394220023131650355208133590933244461376500085989825291802492438397315430902126, [.eps 45252151208292920325921702490933282199278910582112384022013395274701438064229712750311339380, .cls 8 176766215657394220023131650355208133590933244461376500085989825291802492438397315430902126], []⟩,
  ⟨45252151208292920325921702490933282199278910582112384022013395274701438064229712750311339380, [.eps 571162447445952900331341468304666759308540405022709337763488561], []⟩,
  ⟨571162447445952900331341468304666759308540405022709337763488562, [.eps 176766215657394220023131650355208133590933244461376500085989825291802492438397315464456558], []⟩,
  ⟨41156591767769823787531734061243043651555954586103674975687112056840227616876910, [.cls 2 690493029911696171965358009200031771839582986177251953460897427393812776217530428384561], []⟩,
  ⟨690493029911696171965358009200031771839582986177251953460897427393812776217530428384561, [.eps 41156591767769823787531734061243043651555954586103674975687112056840227616858929, .eps 41156591767769823787531734061243043651555954586103674975687112056840227616858930, .cls 2 690493029911696171965358009200031771839582986177251953460897427393812776217530428384561, .cls 9 690493029911696171965358009200031771839582986177251953460897427393812776217530428384562, .eps 10536087492549074889608123919678219174798324374042540793775900686551098269920884084], []⟩,
  ⟨41156591767769823787531734061243043651555954586103674975687112056840227616858929, [], [bs "COPY_TO_NAME"]⟩,
  ⟨41156591767769823787531734061243043651555954586103674975687112056840227616858930, [], [bs "GOT_NAME"]⟩,
  ⟨690493029911696171965358009200031771839582986177251953460897427393812776217530428384562, [.eps 41156591767769823787531734061243043651555954586103674975687112056840227616858931, .eps 41156591767769823787531734061243043651555954586103674975687112056840227616858932, .cls 10 690493029911696171965358009200031771839582986177251953460897427393812776217530428384562, .cls 2 690493029911696171965358009200031771839582986177251953460897427393812776217530428384561, .eps 10536087492549074889608123919678219174798324374042540793775900686551098269920884084], []⟩,
  ⟨41156591767769823787531734061243043651555954586103674975687112056840227616858931, [], [bs "COPY_TO_NAME"]⟩,
  ⟨41156591767769823787531734061243043651555954586103674975687112056840227616858932, [], [bs "GOT_NAME_TRAILING_SPACE"]⟩,
  ⟨10536087492549074889608123919678219174798324374042540793775900686551098269920884084, [.eps 571162447445952900331341468304666759308540405022709337763488562], []⟩,
  ⟨571162447445952900331341468304666759308540405022709337763488563, [.cls 15 10536087492549074889608123919678219174798324374042540793775919705574977705341706604], []⟩,
  ⟨176766215657394220023131650355208133590933244461376500085989825291802492438397315464456558, [.eps 45252151208292920325921702490933282199278910582112384022013395274701438064229712758901273972, .cls 8 176766215657394220023131650355208133590933244461376500085989825291802492438397315464456558], []⟩,
  ⟨45252151208292920325921702490933282199278910582112384022013395274701438064229712758901273972, [.eps 571162447445952900331341468304666759308540405022709337763488563], []⟩,
  ⟨571162447445952900331341468304666759308540405022709337763488564, [.eps 41156591767769823787531734061243043651555954586103674975687112056840227667208558], []⟩,
  ⟨176766215657394220023131650355208133590933244461376500085989825291802492438397315481233774, [.eps 45252151208292920325921702490933282199278910582112384022013395274701438064229712763196241268, .cls 8 176766215657394220023131650355208133590933244461376500085989825291802492438397315481233774], []⟩,
  ⟨45252151208292920325921702490933282199278910582112384022013395274701438064229712763196241268, [.eps 571162447445952900331341468304666759308540405022709337763488564], []⟩,
  ⟨571162447445952900331341468304666759308540405022709337763488565, [.cls 16 571162447445952900331341468304666759308540405022709337763488566], []⟩,
  ⟨41156591767769823787531734061243043651555954586103674975687112056840227667208558, [.cls 2 690493029911696171965358009200031771839582986177251953460897427393812777061955358516529], []⟩,
  ⟨690493029911696171965358009200031771839582986177251953460897427393812777061955358516529, [.eps 41156591767769823787531734061243043651555954586103674975687112056840227667190577, .eps 41156591767769823787531734061243043651555954586103674975687112056840227667190578, .cls 2 690493029911696171965358009200031771839582986177251953460897427393812777061955358516529, .cls 9 690493029911696171965358009200031771839582986177251953460897427393812777061955358516530, .eps 10536087492549074889608123919678219174798324374042540793775900686551098282805785972], []⟩,
  ⟨41156591767769823787531734061243043651555954586103674975687112056840227667190577, [], [bs "COPY_TO_NAME"]⟩,
  ⟨41156591767769823787531734061243043651555954586103674975687112056840227667190578, [], [bs "GOT_NAME"]⟩,
  ⟨690493029911696171965358009200031771839582986177251953460897427393812777061955358516530, [.eps 41156591767769823787531734061243043651555954586103674975687112056840227667190579, .eps 41156591767769823787531734061243043651555954586103674975687112056840227667190580, .cls 10 690493029911696171965358009200031771839582986177251953460897427393812777061955358516530, .cls 2 690493029911696171965358009200031771839582986177251953460897427393812777061955358516529, .eps 10536087492549074889608123919678219174798324374042540793775900686551098282805785972], []⟩,
  ⟨41156591767769823787531734061243043651555954586103674975687112056840227667190579, [], [bs "COPY_TO_NAME"]⟩,
  ⟨41156591767769823787531734061243043651555954586103674975687112056840227667190580, [], [bs "GOT_NAME_TRAILING_SPACE"]⟩,
  ⟨10536087492549074889608123919678219174798324374042540793775900686551098282805785972, [.eps 571162447445952900331341468304666759308540405022709337763488565], []⟩,
  ⟨571162447445952900331341468304666759308540405022709337763488566, [.eps 2697238398092563171739679723437624108748371039754890443206618524167447510592219146606], []⟩,
  ⟨571162447445952900331341468304666759308540405022709337763488567, [.eps 176766215657394220023131650355208133590933244461376500085989825291802492438397315531565422], []⟩,
  ⟨2697238398092563171739679723437624108748371039754890443206618524167447510592219146606, [.cls 13 690493029911696171965358009200031771839582986177251953460894342186866562711608101926260, .cls 14 2697238398092563171739679723437624108748371039754890443206618524167447510592219146606], []⟩,
  ⟨690493029911696171965358009200031771839582986177251953460894342186866562711608101926260, [.eps 571162447445952900331341468304666759308540405022709337763488567], []⟩,
  ⟨571162447445952900331341468304666759308540405022709337763488568, [.cls 17 690493029911696171965358009200031771839582986177251953460898673824560946259371819431269], []⟩,
  ⟨176766215657394220023131650355208133590933244461376500085989825291802492438397315531565422, [.eps 45252151208292920325921702490933282199278910582112384022013395274701438064229712776081143156, .cls 8 176766215657394220023131650355208133590933244461376500085989825291802492438397315531565422], []⟩,
  ⟨45252151208292920325921702490933282199278910582112384022013395274701438064229712776081143156, [.eps 571162447445952900331341468304666759308540405022709337763488568], []⟩,
  ⟨571162447445952900331341468304666759308540405022709337763488569, [.eps 41156591767769823787531734061243043651555954586103674975687112056840227734317422], []⟩,
  ⟨176766215657394220023131650355208133590933244461376500085989825291802492438397315548342638, [.eps 45252151208292920325921702490933282199278910582112384022013395274701438064229712780376110452, .cls 8 176766215657394220023131650355208133590933244461376500085989825291802492438397315548342638], []⟩,
  ⟨45252151208292920325921702490933282199278910582112384022013395274701438064229712780376110452, [.eps 571162447445952900331341468304666759308540405022709337763488569], []⟩,
  ⟨146217586546163942484823415885994690382986343685813590467453071664, [.cls 18 146217586546163942484823415885994690382986343685813590467453071665], []⟩,
  ⟨41156591767769823787531734061243043651555954586103674975687112056840227734317422, [.cls 2 690493029911696171965358009200031771839582986177251953460897427393812778187855265359153], []⟩,
  ⟨690493029911696171965358009200031771839582986177251953460897427393812778187855265359153, [.eps 41156591767769823787531734061243043651555954586103674975687112056840227734299441, .eps 41156591767769823787531734061243043651555954586103674975687112056840227734299442, .cls 2 690493029911696171965358009200031771839582986177251953460897427393812778187855265359153, .cls 9 690493029911696171965358009200031771839582986177251953460897427393812778187855265359154, .eps 10536087492549074889608123919678219174798324374042540793775900686551098299985655156], []⟩,
  ⟨41156591767769823787531734061243043651555954586103674975687112056840227734299441, [], [bs "COPY_TO_NAME"]⟩,
  ⟨41156591767769823787531734061243043651555954586103674975687112056840227734299442, [], [bs "GOT_NAME"]⟩,
  ⟨690493029911696171965358009200031771839582986177251953460897427393812778187855265359154, [.eps 41156591767769823787531734061243043651555954586103674975687112056840227734299443, .eps 41156591767769823787531734061243043651555954586103674975687112056840227734299444, .cls 10 690493029911696171965358009200031771839582986177251953460897427393812778187855265359154, .cls 2 690493029911696171965358009200031771839582986177251953460897427393812778187855265359153, .eps 10536087492549074889608123919678219174798324374042540793775900686551098299985655156], []⟩,
  ⟨41156591767769823787531734061243043651555954586103674975687112056840227734299443, [], [bs "COPY_TO_NAME"]⟩,
  ⟨41156591767769823787531734061243043651555954586103674975687112056840227734299444, [], [bs "GOT_NAME_TRAILING_SPACE"]⟩,
  ⟨10536087492549074889608123919678219174798324374042540793775900686551098299985655156, [.eps 146217586546163942484823415885994690382986343685813590467453071664], []⟩,
  ⟨146217586546163942484823415885994690382986343685813590467453071665, [.eps 45252151208292920325921702490933282199278910582112384022013395274701438064229712750340630894], []⟩,
  ⟨146217586546163942484823415885994690382986343685813590467453071666, [.cls 19 2697238398092563171739679723437624108748371039754890443206635444627191188573222298996], []⟩,
  ⟨45252151208292920325921702490933282199278910582112384022013395274701438064229712750340630894, [.eps 11584550709322987603435955837678920243015401109020770309635429190323568144442806464087201903988, .cls 8 45252151208292920325921702490933282199278910582112384022013395274701438064229712750340630894], []⟩,
  ⟨11584550709322987603435955837678920243015401109020770309635429190323568144442806464087201903988, [.eps 146217586546163942484823415885994690382986343685813590467453071666], []⟩,
  ⟨146217586546163942484823415885994690382986343685813590467453071667, [.eps 10536087492549074889608123919678219174798324374042540793775900686551098265688762734], []⟩,
  ⟨45252151208292920325921702490933282199278910582112384022013395274701438064229712750357408110, [.eps 11584550709322987603435955837678920243015401109020770309635429190323568144442806464091496871284, .cls 8 45252151208292920325921702490933282199278910582112384022013395274701438064229712750357408110], []⟩,
  ⟨11584550709322987603435955837678920243015401109020770309635429190323568144442806464091496871284, [.eps 146217586546163942484823415885994690382986343685813590467453071667], []⟩,
  ⟨146217586546163942484823415885994690382986343685813590467453071668, [.cls 20 146217586546163942484823415885994690382986343685813590467453071669], []⟩,
  ⟨10536087492549074889608123919678219174798324374042540793775900686551098265688762734, [.cls 2 176766215657394220023131650355208133590933244461376500085989741412816070640685782424970545], []⟩,
  ⟨176766215657394220023131650355208133590933244461376500085989741412816070640685782424970545, [.eps 10536087492549074889608123919678219174798324374042540793775900686551098265688744753, .eps 10536087492549074889608123919678219174798324374042540793775900686551098265688744754, .cls 2 176766215657394220023131650355208133590933244461376500085989741412816070640685782424970545, .cls 9 176766215657394220023131650355208133590933244461376500085989741412816070640685782424970546, .eps 2697238398092563171739679723437624108748371039754890443206630575757081156016323655028], []⟩,
  ⟨10536087492549074889608123919678219174798324374042540793775900686551098265688744753, [], [bs "COPY_TO_NAME"]⟩,
  ⟨10536087492549074889608123919678219174798324374042540793775900686551098265688744754, [], [bs "GOT_NAME"]⟩,
  ⟨176766215657394220023131650355208133590933244461376500085989741412816070640685782424970546, [.eps 10536087492549074889608123919678219174798324374042540793775900686551098265688744755, .eps 10536087492549074889608123919678219174798324374042540793775900686551098265688744756, .cls 10 176766215657394220023131650355208133590933244461376500085989741412816070640685782424970546, .cls 2 176766215657394220023131650355208133590933244461376500085989741412816070640685782424970545, .eps 2697238398092563171739679723437624108748371039754890443206630575757081156016323655028], []⟩,
  ⟨10536087492549074889608123919678219174798324374042540793775900686551098265688744755, [], [bs "COPY_TO_NAME"]⟩,
  ⟨10536087492549074889608123919678219174798324374042540793775900686551098265688744756, [], [bs "GOT_NAME_TRAILING_SPACE"]⟩,
  ⟨2697238398092563171739679723437624108748371039754890443206630575757081156016323655028, [.eps 146217586546163942484823415885994690382986343685813590467453071668], []⟩,
  ⟨146217586546163942484823415885994690382986343685813590467453071669, [.cls 21 146217586546163942484823415885994690382986343685813590467453071670], []⟩,
  ⟨146217586546163942484823415885994690382986343685813590467453071670, [.cls 22 146217586546163942484823415885994690382986343685813590467453071671], []⟩,
  ⟨146217586546163942484823415885994690382986343685813590467453071671, [.eps 45252151208292920325921702490933282199278910582112384022013395274701438064229712750390962542], []⟩,
  ⟨146217586546163942484823415885994690382986343685813590467453071672, [.cls 23 2697238398092563171739679723437624108748371039754890443206635444627191188573222298996], []⟩,
  ⟨45252151208292920325921702490933282199278910582112384022013395274701438064229712750390962542, [.eps 11584550709322987603435955837678920243015401109020770309635429190323568144442806464100086805876, .cls 8 45252151208292920325921702490933282199278910582112384022013395274701438064229712750390962542], []⟩,
  ⟨11584550709322987603435955837678920243015401109020770309635429190323568144442806464100086805876, [.eps 146217586546163942484823415885994690382986343685813590467453071672], []⟩,
  ⟨146217586546163942484823415885994690382986343685813590467453071673, [.eps 10536087492549074889608123919678219174798324374042540793775900686551098265739094382], []⟩,
  ⟨45252151208292920325921702490933282199278910582112384022013395274701438064229712750407739758, [.eps 11584550709322987603435955837678920243015401109020770309635429190323568144442806464104381773172, .cls 8 45252151208292920325921702490933282199278910582112384022013395274701438064229712750407739758], []⟩,
  ⟨11584550709322987603435955837678920243015401109020770309635429190323568144442806464104381773172, [.eps 146217586546163942484823415885994690382986343685813590467453071673], []⟩,
  ⟨146217586546163942484823415885994690382986343685813590467453071920, [.cls 24 146217586546163942484823415885994690382986343685813590467453071921], []⟩,
  ⟨10536087492549074889608123919678219174798324374042540793775900686551098265739094382, [.cls 2 176766215657394220023131650355208133590933244461376500085989741412816070641530207355102513], []⟩,
  ⟨176766215657394220023131650355208133590933244461376500085989741412816070641530207355102513, [.eps 10536087492549074889608123919678219174798324374042540793775900686551098265739076401, .eps 10536087492549074889608123919678219174798324374042540793775900686551098265739076402, .cls 2 176766215657394220023131650355208133590933244461376500085989741412816070641530207355102513, .cls 9 176766215657394220023131650355208133590933244461376500085989741412816070641530207355102514, .eps 2697238398092563171739679723437624108748371039754890443206630575757081156029208556916], []⟩,
  ⟨10536087492549074889608123919678219174798324374042540793775900686551098265739076401, [], [bs "COPY_TO_NAME"]⟩,
  ⟨10536087492549074889608123919678219174798324374042540793775900686551098265739076402, [], [bs "GOT_NAME"]⟩,
  ⟨176766215657394220023131650355208133590933244461376500085989741412816070641530207355102514, [.eps 10536087492549074889608123919678219174798324374042540793775900686551098265739076403, .eps 10536087492549074889608123919678219174798324374042540793775900686551098265739076404, .cls 10 176766215657394220023131650355208133590933244461376500085989741412816070641530207355102514, .cls 2 176766215657394220023131650355208133590933244461376500085989741412816070641530207355102513, .eps 2697238398092563171739679723437624108748371039754890443206630575757081156029208556916], []⟩,
  ⟨10536087492549074889608123919678219174798324374042540793775900686551098265739076403, [], [bs "COPY_TO_NAME"]⟩,
  ⟨10536087492549074889608123919678219174798324374042540793775900686551098265739076404, [], [bs "GOT_NAME_TRAILING_SPACE"]⟩,
  ⟨2697238398092563171739679723437624108748371039754890443206630575757081156029208556916, [.eps 146217586546163942484823415885994690382986343685813590467453071920], []⟩,
  ⟨146217586546163942484823415885994690382986343685813590467453071921, [.cls 25 146217586546163942484823415885994690382986343685813590467453071922], []⟩,
  ⟨146217586546163942484823415885994690382986343685813590467453071922, [.cls 26 146217586546163942484823415885994690382986343685813590467453071923], []⟩,
  ⟨146217586546163942484823415885994690382986343685813590467453071923, [.eps 45252151208292920325921702490933282199278910582112384022013395274701438064229712750441294190], []⟩,
  ⟨146217586546163942484823415885994690382986343685813590467453071924, [.cls 27 12737348207461333518789336973652799230039941168016982800540679234644117287451908043754460397379669667509605], []⟩,
  ⟨45252151208292920325921702490933282199278910582112384022013395274701438064229712750441294190, [.eps 11584550709322987603435955837678920243015401109020770309635429190323568144442806464112971707764, .cls 8 45252151208292920325921702490933282199278910582112384022013395274701438064229712750441294190], []⟩,
  ⟨11584550709322987603435955837678920243015401109020770309635429190323568144442806464112971707764, [.eps 146217586546163942484823415885994690382986343685813590467453071924], []⟩,
  ⟨10536087492549074889608123919678219174798324374042540793775919705574977705341706604, [.eps 45252151208292920325921702490933282199278910582112384022013395274701438064229712754685929838, .eps 45252151208292920325921702490933282199278910582112384022013395274701438064229712754635598190, .eps 45252151208292920325921702490933282199278910582112384022013395274701438064229712750458071406], []⟩,
  ⟨146217586546163942484823415885994690382986343685813590467453071925, [.eps 690493029911696171965358009200031771839582986177251953460898381179751104639607105284462], []⟩,
  ⟨45252151208292920325921702490933282199278910582112384022013395274701438064229712750458071406, [.eps 11584550709322987603435955837678920243015401109020770309635429190323568144442806464117266675060, .cls 8 45252151208292920325921702490933282199278910582112384022013395274701438064229712750458071406], []⟩,
  ⟨11584550709322987603435955837678920243015401109020770309635429190323568144442806464117266675060, [.eps 146217586546163942484823415885994690382986343685813590467453071925], []⟩,
  ⟨146217586546163942484823415885994690382986343685813590467453071926, [.eps 45252151208292920325921702490933282199278910582112384022013395274701438064229712750491625838], []⟩,
  ⟨690493029911696171965358009200031771839582986177251953460898381179751104639607105284462, [.cls 11 176766215657394220023131650355208133590933244461376500085989985582016282787739418953348656], []⟩,
  ⟨176766215657394220023131650355208133590933244461376500085989985582016282787739418953348656, [.eps 3260761141110101380810070265255116602890224939012347596938412502092852653133760397621981344146112076525234542, .cls 1 176766215657394220023131650355208133590933244461376500085989985582016282787739418953348657, .cls 0 176766215657394220023131650355208133590933244461376500085989985582016282787739418953348657], []⟩,
  ⟨3260761141110101380810070265255116602890224939012347596938412502092852653133760397621981344146112076525234542, [.cls 6 3260761141110101380810070265255116602890224939012347596938412502092852653133760397621981344146112076525216562, .cls 4 3260761141110101380810070265255116602890224939012347596938412502092852653133760397621981344146112076525216561], []⟩,
  ⟨3260761141110101380810070265255116602890224939012347596938412502092852653133760397621981344146112076525216561, [.cls 5 834754852124185953487377987905309850339897584387160984816233600535770279202242661791227224101404691590460437876], []⟩,
  ⟨3260761141110101380810070265255116602890224939012347596938412502092852653133760397621981344146112076525216562, [.cls 7 834754852124185953487377987905309850339897584387160984816233600535770279202242661791227224101404691590460437876], []⟩,
  ⟨834754852124185953487377987905309850339897584387160984816233600535770279202242661791227224101404691590460437876, [.eps 176766215657394220023131650355208133590933244461376500085989985582016282787739418953348657], []⟩,
  ⟨176766215657394220023131650355208133590933244461376500085989985582016282787739418953348657, [.eps 690493029911696171965358009200031771839582986177251953460898381179751104639607105266481, .eps 3260761141110101380810070265255116602890224939012347596938412502092852653133760397621981344146112076542011758, .cls 1 176766215657394220023131650355208133590933244461376500085989985582016282787739418953348657, .cls 0 176766215657394220023131650355208133590933244461376500085989985582016282787739418953348657, .eps 176766215657394220023131650355208133590933244461376500085989985582016282787739418953348658], []⟩,
  ⟨690493029911696171965358009200031771839582986177251953460898381179751104639607105266481, [], [bs "COPY_TO_VALUE"]⟩,
  ⟨3260761141110101380810070265255116602890224939012347596938412502092852653133760397621981344146112076542011758, [.cls 6 3260761141110101380810070265255116602890224939012347596938412502092852653133760397621981344146112076541993778, .cls 4 3260761141110101380810070265255116602890224939012347596938412502092852653133760397621981344146112076541993777], []⟩,
  ⟨3260761141110101380810070265255116602890224939012347596938412502092852653133760397621981344146112076541993777, [.cls 5 834754852124185953487377987905309850339897584387160984816233600535770279202242661791227224101404691594755405172], []⟩,
  ⟨3260761141110101380810070265255116602890224939012347596938412502092852653133760397621981344146112076541993778, [.cls 7 834754852124185953487377987905309850339897584387160984816233600535770279202242661791227224101404691594755405172], []⟩,
  ⟨834754852124185953487377987905309850339897584387160984816233600535770279202242661791227224101404691594755405172, [.eps 176766215657394220023131650355208133590933244461376500085989985582016282787739418953348657], []⟩,
  ⟨176766215657394220023131650355208133590933244461376500085989985582016282787739418953348658, [.cls 12 176766215657394220023131650355208133590933244461376500085989985582016282787739418953217396], []⟩,
  ⟨176766215657394220023131650355208133590933244461376500085989985582016282787739418953217396, [.eps 146217586546163942484823415885994690382986343685813590467453071926], []⟩,
  ⟨45252151208292920325921702490933282199278910582112384022013395274701438064229712750491625838, [.eps 11584550709322987603435955837678920243015401109020770309635429190323568144442806464125856609652, .cls 8 45252151208292920325921702490933282199278910582112384022013395274701438064229712750491625838], []⟩,
  ⟨11584550709322987603435955837678920243015401109020770309635429190323568144442806464125856609652, [.eps 10536087492549074889608123919678219174798324374042540793775905778355259648668164460], []⟩,
  ⟨146217586546163942484823415885994690382986343685813590467453071927, [.eps 2697238398092563171739679723437624108748371039754890443206640247146362812435964782958], []⟩,
  ⟨45252151208292920325921702490933282199278910582112384022013395274701438064229712754635598190, [.eps 11584550709322987603435955837678920243015401109020770309635429190323568144442806465186713531764, .cls 8 45252151208292920325921702490933282199278910582112384022013395274701438064229712754635598190], []⟩,
  ⟨11584550709322987603435955837678920243015401109020770309635429190323568144442806465186713531764, [.eps 146217586546163942484823415885994690382986343685813590467453071927], []⟩,
  ⟨146217586546163942484823415885994690382986343685813590467453071928, [.eps 45252151208292920325921702490933282199278910582112384022013395274701438064229712754669152622], []⟩,
  ⟨2697238398092563171739679723437624108748371039754890443206640247146362812435964782958, [.cls 0 2697238398092563171739679723437624108748371039754890443206640247146362812435964786225], []⟩,
  ⟨2697238398092563171739679723437624108748371039754890443206640247146362812435964786225, [.eps 2697238398092563171739679723437624108748371039754890443206640247146362812435964764977, .eps 690493029911696171965358009200031771839582986177251953460899903269468879983606984832372, .cls 0 2697238398092563171739679723437624108748371039754890443206640247146362812435964786225], []⟩,
  ⟨2697238398092563171739679723437624108748371039754890443206640247146362812435964764977, [], [bs "COPY_TO_VALUE"]⟩,
  ⟨690493029911696171965358009200031771839582986177251953460899903269468879983606984832372, [.eps 146217586546163942484823415885994690382986343685813590467453071928], []⟩,
  ⟨45252151208292920325921702490933282199278910582112384022013395274701438064229712754669152622, [.eps 11584550709322987603435955837678920243015401109020770309635429190323568144442806465195303466356, .cls 8 45252151208292920325921702490933282199278910582112384022013395274701438064229712754669152622], []⟩,
  ⟨11584550709322987603435955837678920243015401109020770309635429190323568144442806465195303466356, [.eps 10536087492549074889608123919678219174798324374042540793775905778355259648668164460], []⟩,
  ⟨146217586546163942484823415885994690382986343685813590467453071929, [.eps 146217586546163942484823415885994690382986343685813590467453072176], []⟩,
  ⟨45252151208292920325921702490933282199278910582112384022013395274701438064229712754685929838, [.eps 11584550709322987603435955837678920243015401109020770309635429190323568144442806465199598433652, .cls 8 45252151208292920325921702490933282199278910582112384022013395274701438064229712754685929838], []⟩,
  ⟨11584550709322987603435955837678920243015401109020770309635429190323568144442806465199598433652, [.eps 146217586546163942484823415885994690382986343685813590467453071929], []⟩,
  ⟨146217586546163942484823415885994690382986343685813590467453072176, [.token 0 10536087492549074889608123919678219174798324374042540793775905778355259648668164460], []⟩,
  ⟨690493029911696171965358009200031771839582986177251953460898673824560946259371819431269, [.eps 45252151208292920325921702490933282199278910582112384022013395274701438064229712754753038702, .eps 45252151208292920325921702490933282199278910582112384022013395274701438064229712754702707054], []⟩,
  ⟨146217586546163942484823415885994690382986343685813590467453072177, [.eps 690493029911696171965358009200031771839582986177251953460898381179751104639611349920110], []⟩,
  ⟨45252151208292920325921702490933282199278910582112384022013395274701438064229712754702707054, [.eps 11584550709322987603435955837678920243015401109020770309635429190323568144442806465203893400948, .cls 8 45252151208292920325921702490933282199278910582112384022013395274701438064229712754702707054], []⟩,
  ⟨11584550709322987603435955837678920243015401109020770309635429190323568144442806465203893400948, [.eps 146217586546163942484823415885994690382986343685813590467453072177], []⟩,
  ⟨146217586546163942484823415885994690382986343685813590467453072178, [.eps 45252151208292920325921702490933282199278910582112384022013395274701438064229712754736261486], []⟩,
  ⟨690493029911696171965358009200031771839582986177251953460898381179751104639611349920110, [.cls 11 176766215657394220023131650355208133590933244461376500085989985582016282787740505580074544], []⟩,
  ⟨176766215657394220023131650355208133590933244461376500085989985582016282787740505580074544, [.eps 3260761141110101380810070265255116602890224939012347596938412502092852653133780442347097453023523243144669550, .cls 1 176766215657394220023131650355208133590933244461376500085989985582016282787740505580074545, .cls 0 176766215657394220023131650355208133590933244461376500085989985582016282787740505580074545], []⟩,
  ⟨3260761141110101380810070265255116602890224939012347596938412502092852653133780442347097453023523243144669550, [.cls 6 3260761141110101380810070265255116602890224939012347596938412502092852653133780442347097453023523243144651570, .cls 4 3260761141110101380810070265255116602890224939012347596938412502092852653133780442347097453023523243144651569], []⟩,
  ⟨3260761141110101380810070265255116602890224939012347596938412502092852653133780442347097453023523243144651569, [.cls 5 834754852124185953487377987905309850339897584387160984816233600535770279202247793240856947974021950245035799924], []⟩,
  ⟨3260761141110101380810070265255116602890224939012347596938412502092852653133780442347097453023523243144651570, [.cls 7 834754852124185953487377987905309850339897584387160984816233600535770279202247793240856947974021950245035799924], []⟩,
  ⟨834754852124185953487377987905309850339897584387160984816233600535770279202247793240856947974021950245035799924, [.eps 176766215657394220023131650355208133590933244461376500085989985582016282787740505580074545], []⟩,
  ⟨176766215657394220023131650355208133590933244461376500085989985582016282787740505580074545, [.eps 690493029911696171965358009200031771839582986177251953460898381179751104639611349902129, .eps 3260761141110101380810070265255116602890224939012347596938412502092852653133780442347097453023523243161446766, .cls 1 176766215657394220023131650355208133590933244461376500085989985582016282787740505580074545, .cls 0 176766215657394220023131650355208133590933244461376500085989985582016282787740505580074545, .eps 176766215657394220023131650355208133590933244461376500085989985582016282787740505580074546], []⟩,
  ⟨690493029911696171965358009200031771839582986177251953460898381179751104639611349902129, [], [bs "COPY_TO_VALUE"]⟩,
  ⟨3260761141110101380810070265255116602890224939012347596938412502092852653133780442347097453023523243161446766, [.cls 6 3260761141110101380810070265255116602890224939012347596938412502092852653133780442347097453023523243161428786, .cls 4 3260761141110101380810070265255116602890224939012347596938412502092852653133780442347097453023523243161428785], []⟩,
  ⟨3260761141110101380810070265255116602890224939012347596938412502092852653133780442347097453023523243161428785, [.cls 5 834754852124185953487377987905309850339897584387160984816233600535770279202247793240856947974021950249330767220], []⟩,
  ⟨3260761141110101380810070265255116602890224939012347596938412502092852653133780442347097453023523243161428786, [.cls 7 834754852124185953487377987905309850339897584387160984816233600535770279202247793240856947974021950249330767220], []⟩,
  ⟨834754852124185953487377987905309850339897584387160984816233600535770279202247793240856947974021950249330767220, [.eps 176766215657394220023131650355208133590933244461376500085989985582016282787740505580074545], []⟩,
  ⟨176766215657394220023131650355208133590933244461376500085989985582016282787740505580074546, [.cls 12 176766215657394220023131650355208133590933244461376500085989985582016282787740505579943284], []⟩,
  ⟨176766215657394220023131650355208133590933244461376500085989985582016282787740505579943284, [.eps 146217586546163942484823415885994690382986343685813590467453072178], []⟩,
  ⟨45252151208292920325921702490933282199278910582112384022013395274701438064229712754736261486, [.eps 11584550709322987603435955837678920243015401109020770309635429190323568144442806465212483335540, .cls 8 45252151208292920325921702490933282199278910582112384022013395274701438064229712754736261486], []⟩,
  ⟨11584550709322987603435955837678920243015401109020770309635429190323568144442806465212483335540, [.eps 690493029911696171965358009200031771839582986177251953460897761090289503697214561482085], []⟩,
  ⟨146217586546163942484823415885994690382986343685813590467453072179, [.eps 2697238398092563171739679723437624108748371039754890443206640247146362812436082223470], []⟩,
  ⟨45252151208292920325921702490933282199278910582112384022013395274701438064229712754753038702, [.eps 11584550709322987603435955837678920243015401109020770309635429190323568144442806465216778302836, .cls 8 45252151208292920325921702490933282199278910582112384022013395274701438064229712754753038702], []⟩,
  ⟨11584550709322987603435955837678920243015401109020770309635429190323568144442806465216778302836, [.eps 146217586546163942484823415885994690382986343685813590467453072179], []⟩,
  ⟨146217586546163942484823415885994690382986343685813590467453072180, [.eps 45252151208292920325921702490933282199278910582112384022013395274701438064229712754786593134], []⟩,
  ⟨2697238398092563171739679723437624108748371039754890443206640247146362812436082223470, [.cls 0 2697238398092563171739679723437624108748371039754890443206640247146362812436082226737], []⟩,
  ⟨2697238398092563171739679723437624108748371039754890443206640247146362812436082226737, [.eps 2697238398092563171739679723437624108748371039754890443206640247146362812436082205489, .eps 690493029911696171965358009200031771839582986177251953460899903269468879983637049603444, .cls 0 2697238398092563171739679723437624108748371039754890443206640247146362812436082226737], []⟩,
  ⟨2697238398092563171739679723437624108748371039754890443206640247146362812436082205489, [], [bs "COPY_TO_VALUE"]⟩,
  ⟨690493029911696171965358009200031771839582986177251953460899903269468879983637049603444, [.eps 146217586546163942484823415885994690382986343685813590467453072180], []⟩,
  ⟨45252151208292920325921702490933282199278910582112384022013395274701438064229712754786593134, [.eps 11584550709322987603435955837678920243015401109020770309635429190323568144442806465225368237428, .cls 8 45252151208292920325921702490933282199278910582112384022013395274701438064229712754786593134], []⟩,
  ⟨11584550709322987603435955837678920243015401109020770309635429190323568144442806465225368237428, [.eps 690493029911696171965358009200031771839582986177251953460897761090289503697214561482085], []⟩,
  ⟨2697238398092563171739679723437624108748371039754890443206635444627191188573222298996, [.eps 45252151208292920325921702490933282199278910582112384022013395274701438064229712758980897134, .eps 45252151208292920325921702490933282199278910582112384022013395274701438064229712758930565486], []⟩,
  ⟨146217586546163942484823415885994690382986343685813590467453072181, [.cls 28 146217586546163942484823415885994690382986343685813590467453072182], []⟩,
  ⟨45252151208292920325921702490933282199278910582112384022013395274701438064229712758930565486, [.eps 11584550709322987603435955837678920243015401109020770309635429190323568144442806466286225159540, .cls 8 45252151208292920325921702490933282199278910582112384022013395274701438064229712758930565486], []⟩,
  ⟨11584550709322987603435955837678920243015401109020770309635429190323568144442806466286225159540, [.eps 146217586546163942484823415885994690382986343685813590467453072181], []⟩,
  ⟨146217586546163942484823415885994690382986343685813590467453072182, [.cls 29 146217586546163942484823415885994690382986343685813590467453072183], []⟩,
  ⟨146217586546163942484823415885994690382986343685813590467453072183, [.eps 2697238398092563171739679723437624108748371039754890443206640247146362812440259750254], []⟩,
  ⟨146217586546163942484823415885994690382986343685813590467453072184, [.eps 45252151208292920325921702490933282199278910582112384022013395274701438064229712758964119918], []⟩,
  ⟨2697238398092563171739679723437624108748371039754890443206640247146362812440259750254, [.cls 0 2697238398092563171739679723437624108748371039754890443206640247146362812440259753521], []⟩,
  ⟨2697238398092563171739679723437624108748371039754890443206640247146362812440259753521, [.eps 2697238398092563171739679723437624108748371039754890443206640247146362812440259732273, .eps 690493029911696171965358009200031771839582986177251953460899903269468879984706496460148, .cls 0 2697238398092563171739679723437624108748371039754890443206640247146362812440259753521], []⟩,
  ⟨2697238398092563171739679723437624108748371039754890443206640247146362812440259732273, [], [bs "COPY_TO_VALUE"]⟩,
  ⟨690493029911696171965358009200031771839582986177251953460899903269468879984706496460148, [.eps 146217586546163942484823415885994690382986343685813590467453072184], []⟩,
  ⟨45252151208292920325921702490933282199278910582112384022013395274701438064229712758964119918, [.eps 11584550709322987603435955837678920243015401109020770309635429190323568144442806466294815094132, .cls 8 45252151208292920325921702490933282199278910582112384022013395274701438064229712758964119918], []⟩,
  ⟨11584550709322987603435955837678920243015401109020770309635429190323568144442806466294815094132, [.eps 2697238398092563171739679723437624108748371039754890443206631879258943366064795510132], []⟩,
  ⟨146217586546163942484823415885994690382986343685813590467453072185, [.eps 2697238398092563171739679723437624108748371039754890443206629404629382945492788210030], []⟩,
  ⟨45252151208292920325921702490933282199278910582112384022013395274701438064229712758980897134, [.eps 11584550709322987603435955837678920243015401109020770309635429190323568144442806466299110061428, .cls 8 45252151208292920325921702490933282199278910582112384022013395274701438064229712758980897134], []⟩,
  ⟨11584550709322987603435955837678920243015401109020770309635429190323568144442806466299110061428, [.eps 146217586546163942484823415885994690382986343685813590467453072185], []⟩,
  ⟨146217586546163942484823415885994690382986343685813590467453072432, [.cls 30 146217586546163942484823415885994690382986343685813590467453072433], []⟩,
  ⟨2697238398092563171739679723437624108748371039754890443206629404629382945492788210030, [.cls 3 11584550709322987603435955837678920243015401109020770309635418663275150751551675970311653650993, .cls 2 11584550709322987603435955837678920243015401109020770309635418663275150751551675970311653650993], []⟩,
  ⟨11584550709322987603435955837678920243015401109020770309635418663275150751551675970311653650993, [.eps 2697238398092563171739679723437624108748371039754890443206629404629382945492788192049, .cls 3 11584550709322987603435955837678920243015401109020770309635418663275150751551675970311653650993, .cls 2 11584550709322987603435955837678920243015401109020770309635418663275150751551675970311653650993, .eps 690493029911696171965358009200031771839582986177251953460897127585122034046153782162804], []⟩,
  ⟨2697238398092563171739679723437624108748371039754890443206629404629382945492788192049, [], [bs "COPY_TO_MINOR"]⟩,
  ⟨690493029911696171965358009200031771839582986177251953460897127585122034046153782162804, [.eps 146217586546163942484823415885994690382986343685813590467453072432], []⟩,
  ⟨146217586546163942484823415885994690382986343685813590467453072433, [.cls 31 146217586546163942484823415885994690382986343685813590467453072434], []⟩,
  ⟨146217586546163942484823415885994690382986343685813590467453072434, [.eps 2697238398092563171739679723437624108748371039754890443206640247146362812440326859118], []⟩,
  ⟨146217586546163942484823415885994690382986343685813590467453072435, [.eps 45252151208292920325921702490933282199278910582112384022013395274701438064229712759031228782], []⟩,
  ⟨2697238398092563171739679723437624108748371039754890443206640247146362812440326859118, [.cls 0 2697238398092563171739679723437624108748371039754890443206640247146362812440326862385], []⟩,
  ⟨2697238398092563171739679723437624108748371039754890443206640247146362812440326862385, [.eps 2697238398092563171739679723437624108748371039754890443206640247146362812440326841137, .eps 690493029911696171965358009200031771839582986177251953460899903269468879984723676329332, .cls 0 2697238398092563171739679723437624108748371039754890443206640247146362812440326862385], []⟩,
  ⟨2697238398092563171739679723437624108748371039754890443206640247146362812440326841137, [], [bs "COPY_TO_VALUE"]⟩,
  ⟨690493029911696171965358009200031771839582986177251953460899903269468879984723676329332, [.eps 146217586546163942484823415885994690382986343685813590467453072435], []⟩,
  ⟨45252151208292920325921702490933282199278910582112384022013395274701438064229712759031228782, [.eps 11584550709322987603435955837678920243015401109020770309635429190323568144442806466311994963316, .cls 8 45252151208292920325921702490933282199278910582112384022013395274701438064229712759031228782], []⟩,
  ⟨11584550709322987603435955837678920243015401109020770309635429190323568144442806466311994963316, [.eps 2697238398092563171739679723437624108748371039754890443206631879258943366064795510132], []⟩,
  ⟨12737348207461333518789336973652799230039941168016982800540679234644117287451908043754460397379669667509605, [.eps 45252151208292920325921702490933282199278910582112384022013395274701438064229712759048005998], []⟩,
  ⟨146217586546163942484823415885994690382986343685813590467453072436, [.eps 2697238398092563171739679723437624108748371039754890443206640247146362812440377190766], []⟩,
  ⟨45252151208292920325921702490933282199278910582112384022013395274701438064229712759048005998, [.eps 11584550709322987603435955837678920243015401109020770309635429190323568144442806466316289930612, .cls 8 45252151208292920325921702490933282199278910582112384022013395274701438064229712759048005998], []⟩,
  ⟨11584550709322987603435955837678920243015401109020770309635429190323568144442806466316289930612, [.eps 146217586546163942484823415885994690382986343685813590467453072436], []⟩,
  ⟨146217586546163942484823415885994690382986343685813590467453072437, [.eps 45252151208292920325921702490933282199278910582112384022013395274701438064229712759081560430], []⟩,
  ⟨2697238398092563171739679723437624108748371039754890443206640247146362812440377190766, [.cls 0 2697238398092563171739679723437624108748371039754890443206640247146362812440377194033], []⟩,
  ⟨2697238398092563171739679723437624108748371039754890443206640247146362812440377194033, [.eps 2697238398092563171739679723437624108748371039754890443206640247146362812440377172785, .eps 690493029911696171965358009200031771839582986177251953460899903269468879984736561231220, .cls 0 2697238398092563171739679723437624108748371039754890443206640247146362812440377194033], []⟩,
  ⟨2697238398092563171739679723437624108748371039754890443206640247146362812440377172785, [], [bs "COPY_TO_VALUE"]⟩,
  ⟨690493029911696171965358009200031771839582986177251953460899903269468879984736561231220, [.eps 146217586546163942484823415885994690382986343685813590467453072437], []⟩,
  ⟨45252151208292920325921702490933282199278910582112384022013395274701438064229712759081560430, [.eps 11584550709322987603435955837678920243015401109020770309635429190323568144442806466324879865204, .cls 8 45252151208292920325921702490933282199278910582112384022013395274701438064229712759081560430], []⟩,
  ⟨11584550709322987603435955837678920243015401109020770309635429190323568144442806466324879865204, [.eps 12737348207461333518789336973652799230039941168016982800540662397668604682763196430933788447369265314428261], []⟩,
  ⟨10536087492549074889608123919678219174798324374042540793775905778355259648668164460, [.eps 146217586546163942484823415885994690382986343685813590467458069876, .eps 146217586546163942484823415885994690382986343685813590467453072438], []⟩,
  ⟨146217586546163942484823415885994690382986343685813590467453072438, [], [bs "GOT_NAMEVALUE"]⟩,
  ⟨690493029911696171965358009200031771839582986177251953460897761090289503697214561482085, [.eps 146217586546163942484823415885994690382986343685813590467458069876, .eps 146217586546163942484823415885994690382986343685813590467453072439], []⟩,
  ⟨146217586546163942484823415885994690382986343685813590467453072439, [], [bs "GOT_NAMEVALUE_CONT"]⟩,
  ⟨2697238398092563171739679723437624108748371039754890443206631879258943366064795510132, [.eps 146217586546163942484823415885994690382986343685813590467458069876, .eps 146217586546163942484823415885994690382986343685813590467453072440], []⟩,
  ⟨146217586546163942484823415885994690382986343685813590467453072440, [], [bs "GOT_NAMEVALUE_CSET"]⟩,
  ⟨12737348207461333518789336973652799230039941168016982800540662397668604682763196430933788447369265314428261, [.eps 146217586546163942484823415885994690382986343685813590467458069876, .eps 146217586546163942484823415885994690382986343685813590467453072441], []⟩,
  ⟨146217586546163942484823415885994690382986343685813590467453072441, [], [bs "GOT_NAMEVALUE_CCONT"]⟩,
  ⟨146217586546163942484823415885994690382986343685813590467458069876, [.eps 1845525402912616395719345832052356468], []⟩,
  ⟨519469219803752730814577688128944609441666741201262, [.cls 2 8715247305999037175466025822519939564638482317170935948593], []⟩,
  ⟨8715247305999037175466025822519939564638482317170935948593, [.eps 132984120269760699088531888161009820017066685747918196, .cls 9 8715247305999037175466025822519939564638482317170935948594, .cls 2 8715247305999037175466025822519939564638482317170935948593, .eps 519469219803752730814577688128944609441666741183282, .eps 519469219803752730814577688128944609441666741183281], []⟩,
  ⟨519469219803752730814577688128944609441666741183281, [], [bs "COPY_TO_NAME"]⟩,
  ⟨519469219803752730814577688128944609441666741183282, [], [bs "GOT_NAME"]⟩,
  ⟨8715247305999037175466025822519939564638482317170935948594, [.eps 132984120269760699088531888161009820017066685747918196, .cls 2 8715247305999037175466025822519939564638482317170935948593, .cls 10 8715247305999037175466025822519939564638482317170935948594, .eps 519469219803752730814577688128944609441666741183284, .eps 519469219803752730814577688128944609441666741183283], []⟩,
  ⟨519469219803752730814577688128944609441666741183283, [], [bs "COPY_TO_NAME"]⟩,
  ⟨519469219803752730814577688128944609441666741183284, [], [bs "GOT_NAME_TRAILING_SPACE"]⟩,
  ⟨132984120269760699088531888161009820017066685747918196, [.eps 1845525402912616395719345832052356468], []⟩,
  ⟨146217586546163942484823415885989497851533392322883099968530180462, [.eps 2697238398092563171739679723437528323449563758753311573217014308978106773123850201454], []⟩,
  ⟨2697238398092563171739679723437528323449563758753311573217014308978106773123850201454, [.cls 2 45252151208292920325921702490931675188631196286376198979161663936816436603761829602701174065], []⟩,
  ⟨45252151208292920325921702490931675188631196286376198979161663936816436603761829602701174065, [.cls 2 45252151208292920325921702490931675188631196286376198979161663936816436603761829602701174065, .eps 690493029911696171965358009200007250803088322240847762743555663098395333919705651967348], []⟩,
  ⟨690493029911696171965358009200007250803088322240847762743555663098395333919705651967348, [.eps 37431702155817969276114794466813311449992548434658073591943726002031], []⟩,
  ⟨37431702155817969276114794466813311449992548434658073591943726002031, [.cls 32 37431702155817969276114794466813311449992548434658073591943725736306], []⟩,
  ⟨37431702155817969276114794466813311449992548434658073591943725736306, [.eps 2697238398092563171739679723437528323449563758753311573217014309125968956089695103342], []⟩,
  ⟨2697238398092563171739679723437528323449563758753311573217014309125968956089695103342, [.cls 3 11584550709322987603435955837678508848289586249312306938665385968460071010716500515843654775345, .cls 2 11584550709322987603435955837678508848289586249312306938665385968460071010716500515843654775345], []⟩,
  ⟨11584550709322987603435955837678508848289586249312306938665385968460071010716500515843654775345, [.eps 2697238398092563171739679723437528323449563758753311573217014309125968956089695085361, .cls 3 11584550709322987603435955837678508848289586249312306938665385968460071010716500515843654775345, .cls 2 11584550709322987603435955837678508848289586249312306938665385968460071010716500515843654775345, .eps 690493029911696171965358009200007250803088322240847762743555663136248052758961946850676], []⟩,
  ⟨2697238398092563171739679723437528323449563758753311573217014309125968956089695085361, [], [bs "COPY_TO_MINOR"]⟩,
  ⟨690493029911696171965358009200007250803088322240847762743555663136248052758961946850676, [.eps 37431702155817969276114794466813311449992548434658073591943726593396], []⟩,
  ⟨37431702155817969276114794466813311449992548434658073591943726593396, [.eps 146217586546163942484823415885989497851533392322883099968530162481, .eps 1845525402912616395719345832052356468], []⟩,
  ⟨146217586546163942484823415885989497851533392322883099968530162481, [], [bs "GOT_MAJORMINOR"]⟩,
  ⟨1845525402912616395719345832052356468, [.eps 74549], []⟩, ⟨74550, [.cls 33 74551], []⟩,
  ⟨29111538763117749496338833107310, [.eps 7452553923358143871062741275866484, .cls 8 29111538763117749496338833107310], []⟩,
  ⟨7452553923358143871062741275866484, [.eps 74550], []⟩, ⟨74551, [.eps 29111538763117749496338849884526], []⟩, ⟨74552, [.token 0 6164935730], []⟩,
  ⟨29111538763117749496338849884526, [.eps 7452553923358143871062745570833780, .cls 8 29111538763117749496338849884526], []⟩,
  ⟨7452553923358143871062745570833780, [.eps 74552], []⟩, ⟨74553, [.eps 7209083605127407795778694723561838], []⟩,
  ⟨29111538763117749496338866661742, [.eps 7452553923358143871062749865801076, .cls 8 29111538763117749496338866661742], []⟩,
  ⟨7452553923358143871062749865801076, [.eps 74553], []⟩, ⟨19083568, [.eps 7452553923358143871062719830321518], []⟩,
  ⟨7209083605127407795778694723561838, [.eps 571162447445952900331341473621578742448203896637937578884884846, .eps 519469219803752730814577692964647887900183440025966, .eps 146217586546163942484823417247118965535287246176381529695603026286], []⟩,
  ⟨571162447445952900331341473621578742448203896637937578884884846, [.eps 45252151208292920325921702912182448873507657373784494756695124550281819666426157767651649902, .eps 45252151208292920325921702912182448873507657373784494756695124550281819666426157767601318254, .eps 176766215657394220023131652000712690912139286616345682643340330274538358071977178896951662, .eps 176766215657394220023131652000712690912139286616345682643340330274538358071977178829842798, .eps 176766215657394220023131652000712690912139286616345682643340330274538358071977178779511150], []⟩,
  ⟨571162447445952900331341473621578742448203896637937578884866865, [.eps 41156591767769823787531734444366928868028169175690431763264407961525008162777454], []⟩,
  ⟨176766215657394220023131652000712690912139286616345682643340330274538358071977178779511150, [.eps 45252151208292920325921702912182448873507657373784494756695124550281819666426157767555249524, .cls 8 176766215657394220023131652000712690912139286616345682643340330274538358071977178779511150], []⟩,
  ⟨45252151208292920325921702912182448873507657373784494756695124550281819666426157767555249524, [.eps 571162447445952900331341473621578742448203896637937578884866865], []⟩,
  ⟨571162447445952900331341473621578742448203896637937578884866866, [.eps 176766215657394220023131652000712690912139286616345682643340330274538358071977178813065582], []⟩,
  ⟨41156591767769823787531734444366928868028169175690431763264407961525008162777454, [.cls 2 690493029911696171965358015627783948875544088345100322825547837482624751348701769590065], []⟩,
  ⟨690493029911696171965358015627783948875544088345100322825547837482624751348701769590065, [.eps 41156591767769823787531734444366928868028169175690431763264407961525008162759473, .eps 41156591767769823787531734444366928868028169175690431763264407961525008162759474, .cls 2 690493029911696171965358015627783948875544088345100322825547837482624751348701769590065, .cls 9 690493029911696171965358015627783948875544088345100322825547837482624751348701769590066, .eps 10536087492549074889608124017757933790215211308976750531395688438150402089671423348], []⟩,
  ⟨41156591767769823787531734444366928868028169175690431763264407961525008162759473, [], [bs "COPY_TO_NAME"]⟩,
  ⟨41156591767769823787531734444366928868028169175690431763264407961525008162759474, [], [bs "GOT_NAME"]⟩,
  ⟨690493029911696171965358015627783948875544088345100322825547837482624751348701769590066, [.eps 41156591767769823787531734444366928868028169175690431763264407961525008162759475, .eps 41156591767769823787531734444366928868028169175690431763264407961525008162759476, .cls 10 690493029911696171965358015627783948875544088345100322825547837482624751348701769590066, .cls 2 690493029911696171965358015627783948875544088345100322825547837482624751348701769590065, .eps 10536087492549074889608124017757933790215211308976750531395688438150402089671423348], []⟩,
  ⟨41156591767769823787531734444366928868028169175690431763264407961525008162759475, [], [bs "COPY_TO_NAME"]⟩,
  ⟨41156591767769823787531734444366928868028169175690431763264407961525008162759476, [], [bs "GOT_NAME_TRAILING_SPACE"]⟩,
  ⟨10536087492549074889608124017757933790215211308976750531395688438150402089671423348, [.eps 571162447445952900331341473621578742448203896637937578884866866], []⟩,
  ⟨571162447445952900331341473621578742448203896637937578884866867, [.cls 15 10536087492549074889608124017757933790215211308976750531395707457174281525092245868], []⟩,
  ⟨176766215657394220023131652000712690912139286616345682643340330274538358071977178813065582, [.eps 45252151208292920325921702912182448873507657373784494756695124550281819666426157776145184116, .cls 8 176766215657394220023131652000712690912139286616345682643340330274538358071977178813065582], []⟩,
  ⟨45252151208292920325921702912182448873507657373784494756695124550281819666426157776145184116, [.eps 571162447445952900331341473621578742448203896637937578884866867], []⟩,
  ⟨571162447445952900331341473621578742448203896637937578884866868, [.eps 41156591767769823787531734444366928868028169175690431763264407961525008213109102], []⟩,
  ⟨176766215657394220023131652000712690912139286616345682643340330274538358071977178829842798, [.eps 45252151208292920325921702912182448873507657373784494756695124550281819666426157780440151412, .cls 8 176766215657394220023131652000712690912139286616345682643340330274538358071977178829842798], []⟩,
  ⟨45252151208292920325921702912182448873507657373784494756695124550281819666426157780440151412, [.eps 571162447445952900331341473621578742448203896637937578884866868], []⟩,
  ⟨571162447445952900331341473621578742448203896637937578884866869, [.cls 16 571162447445952900331341473621578742448203896637937578884866870], []⟩,
  ⟨41156591767769823787531734444366928868028169175690431763264407961525008213109102, [.cls 2 690493029911696171965358015627783948875544088345100322825547837482624752193126699722033], []⟩,
  ⟨690493029911696171965358015627783948875544088345100322825547837482624752193126699722033, [.eps 41156591767769823787531734444366928868028169175690431763264407961525008213091121, .eps 41156591767769823787531734444366928868028169175690431763264407961525008213091122, .cls 2 690493029911696171965358015627783948875544088345100322825547837482624752193126699722033, .cls 9 690493029911696171965358015627783948875544088345100322825547837482624752193126699722034, .eps 10536087492549074889608124017757933790215211308976750531395688438150402102556325236], []⟩,
  ⟨41156591767769823787531734444366928868028169175690431763264407961525008213091121, [], [bs "COPY_TO_NAME"]⟩,
  ⟨41156591767769823787531734444366928868028169175690431763264407961525008213091122, [], [bs "GOT_NAME"]⟩,
  ⟨690493029911696171965358015627783948875544088345100322825547837482624752193126699722034, [.eps 41156591767769823787531734444366928868028169175690431763264407961525008213091123, .eps 41156591767769823787531734444366928868028169175690431763264407961525008213091124, .cls 10 690493029911696171965358015627783948875544088345100322825547837482624752193126699722034, .cls 2 690493029911696171965358015627783948875544088345100322825547837482624752193126699722033, .eps 10536087492549074889608124017757933790215211308976750531395688438150402102556325236], []⟩,
  ⟨41156591767769823787531734444366928868028169175690431763264407961525008213091123, [], [bs "COPY_TO_NAME"]⟩,
  ⟨41156591767769823787531734444366928868028169175690431763264407961525008213091124, [], [bs "GOT_NAME_TRAILING_SPACE"]⟩,
  ⟨10536087492549074889608124017757933790215211308976750531395688438150402102556325236, [.eps 571162447445952900331341473621578742448203896637937578884866869], []⟩,
  ⟨571162447445952900331341473621578742448203896637937578884866870, [.eps 2697238398092563171739679748546031050295094095098048136037284188576869288448357198190], []⟩,
  ⟨571162447445952900331341473621578742448203896637937578884866871, [.eps 176766215657394220023131652000712690912139286616345682643340330274538358071977178880174446], []⟩,
  ⟨2697238398092563171739679748546031050295094095098048136037284188576869288448357198190, [.cls 13 690493029911696171965358015627783948875544088345100322825544752275678537842779443131764, .cls 14 2697238398092563171739679748546031050295094095098048136037284188576869288448357198190], []⟩,
  ⟨690493029911696171965358015627783948875544088345100322825544752275678537842779443131764, [.eps 571162447445952900331341473621578742448203896637937578884866871], []⟩,
  ⟨571162447445952900331341473621578742448203896637937578884866872, [.cls 17 690493029911696171965358015627783948875544088345100322825549083913372921390543160636773], []⟩,
  ⟨176766215657394220023131652000712690912139286616345682643340330274538358071977178880174446, [.eps 45252151208292920325921702912182448873507657373784494756695124550281819666426157793325053300, .cls 8 176766215657394220023131652000712690912139286616345682643340330274538358071977178880174446], []⟩,
  ⟨45252151208292920325921702912182448873507657373784494756695124550281819666426157793325053300, [.eps 571162447445952900331341473621578742448203896637937578884866872], []⟩,
  ⟨571162447445952900331341473621578742448203896637937578884866873, [.eps 41156591767769823787531734444366928868028169175690431763264407961525008280217966], []⟩,
  ⟨176766215657394220023131652000712690912139286616345682643340330274538358071977178896951662, [.eps 45252151208292920325921702912182448873507657373784494756695124550281819666426157797620020596, .cls 8 176766215657394220023131652000712690912139286616345682643340330274538358071977178896951662], []⟩,
  ⟨45252151208292920325921702912182448873507657373784494756695124550281819666426157797620020596, [.eps 571162447445952900331341473621578742448203896637937578884866873], []⟩,
  ⟨146217586546163942484823417247124158066740197539312020194525917488, [.cls 18 146217586546163942484823417247124158066740197539312020194525917489], []⟩,
  ⟨41156591767769823787531734444366928868028169175690431763264407961525008280217966, [.cls 2 690493029911696171965358015627783948875544088345100322825547837482624753319026606564657], []⟩,
  ⟨690493029911696171965358015627783948875544088345100322825547837482624753319026606564657, [.eps 41156591767769823787531734444366928868028169175690431763264407961525008280199985, .eps 41156591767769823787531734444366928868028169175690431763264407961525008280199986, .cls 2 690493029911696171965358015627783948875544088345100322825547837482624753319026606564657, .cls 9 690493029911696171965358015627783948875544088345100322825547837482624753319026606564658, .eps 10536087492549074889608124017757933790215211308976750531395688438150402119736194420], []⟩,
  ⟨41156591767769823787531734444366928868028169175690431763264407961525008280199985, [], [bs "COPY_TO_NAME"]⟩,
  ⟨41156591767769823787531734444366928868028169175690431763264407961525008280199986, [], [bs "GOT_NAME"]⟩,
  ⟨690493029911696171965358015627783948875544088345100322825547837482624753319026606564658, [.eps 41156591767769823787531734444366928868028169175690431763264407961525008280199987, .eps 41156591767769823787531734444366928868028169175690431763264407961525008280199988, .cls 10 690493029911696171965358015627783948875544088345100322825547837482624753319026606564658, .cls 2 690493029911696171965358015627783948875544088345100322825547837482624753319026606564657, .eps 10536087492549074889608124017757933790215211308976750531395688438150402119736194420], []⟩,
  ⟨41156591767769823787531734444366928868028169175690431763264407961525008280199987, [], [bs "COPY_TO_NAME"]⟩,
  ⟨41156591767769823787531734444366928868028169175690431763264407961525008280199988, [], [bs "GOT_NAME_TRAILING_SPACE"]⟩,
  ⟨10536087492549074889608124017757933790215211308976750531395688438150402119736194420, [.eps 146217586546163942484823417247124158066740197539312020194525917488], []⟩,
  ⟨146217586546163942484823417247124158066740197539312020194525917489, [.eps 45252151208292920325921702912182448873507657373784494756695124550281819666426157767584541038], []⟩,
  ⟨146217586546163942484823417247124158066740197539312020194525917490, [.cls 19 2697238398092563171739679748546031050295094095098048136037301109036612966429360350580], []⟩,
  ⟨45252151208292920325921702912182448873507657373784494756695124550281819666426157767584541038, [.eps 11584550709322987603435955945518706911617960287688830657713951884872145834605096388501642900852, .cls 8 45252151208292920325921702912182448873507657373784494756695124550281819666426157767584541038], []⟩,
  ⟨11584550709322987603435955945518706911617960287688830657713951884872145834605096388501642900852, [.eps 146217586546163942484823417247124158066740197539312020194525917490], []⟩,
  ⟨146217586546163942484823417247124158066740197539312020194525917491, [.eps 10536087492549074889608124017757933790215211308976750531395688438150402085439301998], []⟩,
  ⟨45252151208292920325921702912182448873507657373784494756695124550281819666426157767601318254, [.eps 11584550709322987603435955945518706911617960287688830657713951884872145834605096388505937868148, .cls 8 45252151208292920325921702912182448873507657373784494756695124550281819666426157767601318254], []⟩,
  ⟨11584550709322987603435955945518706911617960287688830657713951884872145834605096388505937868148, [.eps 146217586546163942484823417247124158066740197539312020194525917491], []⟩,
  ⟨146217586546163942484823417247124158066740197539312020194525917492, [.cls 20 146217586546163942484823417247124158066740197539312020194525917493], []⟩,
  ⟨10536087492549074889608124017757933790215211308976750531395688438150402085439301998, [.cls 2 176766215657394220023131652000712690912139286616345682643340246395551936274265645773579569], []⟩,
  ⟨176766215657394220023131652000712690912139286616345682643340246395551936274265645773579569, [.eps 10536087492549074889608124017757933790215211308976750531395688438150402085439284017, .eps 10536087492549074889608124017757933790215211308976750531395688438150402085439284018, .cls 2 176766215657394220023131652000712690912139286616345682643340246395551936274265645773579569, .cls 9 176766215657394220023131652000712690912139286616345682643340246395551936274265645773579570, .eps 2697238398092563171739679748546031050295094095098048136037296240166502933872461706612], []⟩,
  ⟨10536087492549074889608124017757933790215211308976750531395688438150402085439284017, [], [bs "COPY_TO_NAME"]⟩,
  ⟨10536087492549074889608124017757933790215211308976750531395688438150402085439284018, [], [bs "GOT_NAME"]⟩,
  ⟨176766215657394220023131652000712690912139286616345682643340246395551936274265645773579570, [.eps 10536087492549074889608124017757933790215211308976750531395688438150402085439284019, .eps 10536087492549074889608124017757933790215211308976750531395688438150402085439284020, .cls 10 176766215657394220023131652000712690912139286616345682643340246395551936274265645773579570, .cls 2 176766215657394220023131652000712690912139286616345682643340246395551936274265645773579569, .eps 2697238398092563171739679748546031050295094095098048136037296240166502933872461706612], []⟩,
  ⟨10536087492549074889608124017757933790215211308976750531395688438150402085439284019, [], [bs "COPY_TO_NAME"]⟩,
  ⟨10536087492549074889608124017757933790215211308976750531395688438150402085439284020, [], [bs "GOT_NAME_TRAILING_SPACE"]⟩,
  ⟨2697238398092563171739679748546031050295094095098048136037296240166502933872461706612, [.eps 146217586546163942484823417247124158066740197539312020194525917492], []⟩,
  ⟨146217586546163942484823417247124158066740197539312020194525917493, [.cls 21 146217586546163942484823417247124158066740197539312020194525917494], []⟩,
  ⟨146217586546163942484823417247124158066740197539312020194525917494, [.cls 22 146217586546163942484823417247124158066740197539312020194525917495], []⟩,
  ⟨146217586546163942484823417247124158066740197539312020194525917495, [.eps 45252151208292920325921702912182448873507657373784494756695124550281819666426157767634872686], []⟩,
  ⟨146217586546163942484823417247124158066740197539312020194525917496, [.cls 23 2697238398092563171739679748546031050295094095098048136037301109036612966429360350580], []⟩,
  ⟨45252151208292920325921702912182448873507657373784494756695124550281819666426157767634872686, [.eps 11584550709322987603435955945518706911617960287688830657713951884872145834605096388514527802740, .cls 8 45252151208292920325921702912182448873507657373784494756695124550281819666426157767634872686], []⟩,
  ⟨11584550709322987603435955945518706911617960287688830657713951884872145834605096388514527802740, [.eps 146217586546163942484823417247124158066740197539312020194525917496], []⟩,
  ⟨146217586546163942484823417247124158066740197539312020194525917497, [.eps 10536087492549074889608124017757933790215211308976750531395688438150402085489633646], []⟩,
  ⟨45252151208292920325921702912182448873507657373784494756695124550281819666426157767651649902, [.eps 11584550709322987603435955945518706911617960287688830657713951884872145834605096388518822770036, .cls 8 45252151208292920325921702912182448873507657373784494756695124550281819666426157767651649902], []⟩,
  ⟨11584550709322987603435955945518706911617960287688830657713951884872145834605096388518822770036, [.eps 146217586546163942484823417247124158066740197539312020194525917497], []⟩,
  ⟨146217586546163942484823417247124158066740197539312020194525917744, [.cls 24 146217586546163942484823417247124158066740197539312020194525917745], []⟩,
  ⟨10536087492549074889608124017757933790215211308976750531395688438150402085489633646, [.cls 2 176766215657394220023131652000712690912139286616345682643340246395551936275110070703711537], []⟩,
  ⟨176766215657394220023131652000712690912139286616345682643340246395551936275110070703711537, [.eps 10536087492549074889608124017757933790215211308976750531395688438150402085489615665, .eps 10536087492549074889608124017757933790215211308976750531395688438150402085489615666, .cls 2 176766215657394220023131652000712690912139286616345682643340246395551936275110070703711537, .cls 9 176766215657394220023131652000712690912139286616345682643340246395551936275110070703711538, .eps 2697238398092563171739679748546031050295094095098048136037296240166502933885346608500], []⟩,
  ⟨10536087492549074889608124017757933790215211308976750531395688438150402085489615665, [], [bs "COPY_TO_NAME"]⟩,
  ⟨10536087492549074889608124017757933790215211308976750531395688438150402085489615666, [], [bs "GOT_NAME"]⟩,
  ⟨176766215657394220023131652000712690912139286616345682643340246395551936275110070703711538, [.eps 10536087492549074889608124017757933790215211308976750531395688438150402085489615667, .eps 10536087492549074889608124017757933790215211308976750531395688438150402085489615668, .cls 10 176766215657394220023131652000712690912139286616345682643340246395551936275110070703711538, .cls 2 176766215657394220023131652000712690912139286616345682643340246395551936275110070703711537, .eps 2697238398092563171739679748546031050295094095098048136037296240166502933885346608500], []⟩,
  ⟨10536087492549074889608124017757933790215211308976750531395688438150402085489615667, [], [bs "COPY_TO_NAME"]⟩,
  ⟨10536087492549074889608124017757933790215211308976750531395688438150402085489615668, [], [bs "GOT_NAME_TRAILING_SPACE"]⟩,
  ⟨2697238398092563171739679748546031050295094095098048136037296240166502933885346608500, [.eps 146217586546163942484823417247124158066740197539312020194525917744], []⟩,
  ⟨146217586546163942484823417247124158066740197539312020194525917745, [.cls 25 146217586546163942484823417247124158066740197539312020194525917746], []⟩,
  ⟨146217586546163942484823417247124158066740197539312020194525917746, [.cls 26 146217586546163942484823417247124158066740197539312020194525917747], []⟩,
  ⟨146217586546163942484823417247124158066740197539312020194525917747, [.eps 45252151208292920325921702912182448873507657373784494756695124550281819666426157767685204334], []⟩,
  ⟨146217586546163942484823417247124158066740197539312020194525917748, [.cls 27 12737348207461333518789337092223898609051725281753671449437096876392581585067845620159026421482714418804069], []⟩,
  ⟨45252151208292920325921702912182448873507657373784494756695124550281819666426157767685204334, [.eps 11584550709322987603435955945518706911617960287688830657713951884872145834605096388527412704628, .cls 8 45252151208292920325921702912182448873507657373784494756695124550281819666426157767685204334], []⟩,
  ⟨11584550709322987603435955945518706911617960287688830657713951884872145834605096388527412704628, [.eps 146217586546163942484823417247124158066740197539312020194525917748], []⟩,
  ⟨10536087492549074889608124017757933790215211308976750531395707457174281525092245868, [.eps 45252151208292920325921702912182448873507657373784494756695124550281819666426157771929839982, .eps 45252151208292920325921702912182448873507657373784494756695124550281819666426157771879508334, .eps 45252151208292920325921702912182448873507657373784494756695124550281819666426157767701981550], []⟩,
  ⟨146217586546163942484823417247124158066740197539312020194525917749, [.eps 690493029911696171965358015627783948875544088345100322825548791268563079770778446489966], []⟩,
  ⟨45252151208292920325921702912182448873507657373784494756695124550281819666426157767701981550, [.eps 11584550709322987603435955945518706911617960287688830657713951884872145834605096388531707671924, .cls 8 45252151208292920325921702912182448873507657373784494756695124550281819666426157767701981550], []⟩,
  ⟨11584550709322987603435955945518706911617960287688830657713951884872145834605096388531707671924, [.eps 146217586546163942484823417247124158066740197539312020194525917749], []⟩,
  ⟨146217586546163942484823417247124158066740197539312020194525917750, [.eps 45252151208292920325921702912182448873507657373784494756695124550281819666426157767735535982], []⟩,
  ⟨690493029911696171965358015627783948875544088345100322825548791268563079770778446489966, [.cls 11 176766215657394220023131652000712690912139286616345682643340490564752148421319282301957680], []⟩,
  ⟨176766215657394220023131652000712690912139286616345682643340490564752148421319282301957680, [.eps 3260761141110101380810070295609318043917241672128939891055895418380459513323440417181550246316491532856617326, .cls 1 176766215657394220023131652000712690912139286616345682643340490564752148421319282301957681, .cls 0 176766215657394220023131652000712690912139286616345682643340490564752148421319282301957681], []⟩,
  ⟨3260761141110101380810070295609318043917241672128939891055895418380459513323440417181550246316491532856617326, [.cls 6 3260761141110101380810070295609318043917241672128939891055895418380459513323440417181550246316491532856599346, .cls 4 3260761141110101380810070295609318043917241672128939891055895418380459513323440417181550246316491532856599345], []⟩,
  ⟨3260761141110101380810070295609318043917241672128939891055895418380459513323440417181550246316491532856599345, [.cls 5 834754852124185953487377995675985419242813868065008612110309227105397635410800746798476863057021832411294430580], []⟩,
  ⟨3260761141110101380810070295609318043917241672128939891055895418380459513323440417181550246316491532856599346, [.cls 7 834754852124185953487377995675985419242813868065008612110309227105397635410800746798476863057021832411294430580], []⟩,
  ⟨834754852124185953487377995675985419242813868065008612110309227105397635410800746798476863057021832411294430580, [.eps 176766215657394220023131652000712690912139286616345682643340490564752148421319282301957681], []⟩,
  ⟨176766215657394220023131652000712690912139286616345682643340490564752148421319282301957681, [.eps 690493029911696171965358015627783948875544088345100322825548791268563079770778446471985, .eps 3260761141110101380810070295609318043917241672128939891055895418380459513323440417181550246316491532873394542, .cls 1 176766215657394220023131652000712690912139286616345682643340490564752148421319282301957681, .cls 0 176766215657394220023131652000712690912139286616345682643340490564752148421319282301957681, .eps 176766215657394220023131652000712690912139286616345682643340490564752148421319282301957682], []⟩,
  ⟨690493029911696171965358015627783948875544088345100322825548791268563079770778446471985, [], [bs "COPY_TO_VALUE"]⟩,
  ⟨3260761141110101380810070295609318043917241672128939891055895418380459513323440417181550246316491532873394542, [.cls 6 3260761141110101380810070295609318043917241672128939891055895418380459513323440417181550246316491532873376562, .cls 4 3260761141110101380810070295609318043917241672128939891055895418380459513323440417181550246316491532873376561], []⟩,
  ⟨3260761141110101380810070295609318043917241672128939891055895418380459513323440417181550246316491532873376561, [.cls 5 834754852124185953487377995675985419242813868065008612110309227105397635410800746798476863057021832415589397876], []⟩,
  ⟨3260761141110101380810070295609318043917241672128939891055895418380459513323440417181550246316491532873376562, [.cls 7 834754852124185953487377995675985419242813868065008612110309227105397635410800746798476863057021832415589397876], []⟩,
  ⟨834754852124185953487377995675985419242813868065008612110309227105397635410800746798476863057021832415589397876, [.eps 176766215657394220023131652000712690912139286616345682643340490564752148421319282301957681], []⟩,
  ⟨176766215657394220023131652000712690912139286616345682643340490564752148421319282301957682, [.cls 12 176766215657394220023131652000712690912139286616345682643340490564752148421319282301826420], []⟩,
  ⟨176766215657394220023131652000712690912139286616345682643340490564752148421319282301826420, [.eps 146217586546163942484823417247124158066740197539312020194525917750], []⟩,
  ⟨45252151208292920325921702912182448873507657373784494756695124550281819666426157767735535982, [.eps 11584550709322987603435955945518706911617960287688830657713951884872145834605096388540297606516, .cls 8 45252151208292920325921702912182448873507657373784494756695124550281819666426157767735535982], []⟩,
  ⟨11584550709322987603435955945518706911617960287688830657713951884872145834605096388540297606516, [.eps 10536087492549074889608124017757933790215211308976750531395693529954563468418703724], []⟩,
  ⟨146217586546163942484823417247124158066740197539312020194525917751, [.eps 2697238398092563171739679748546031050295094095098048136037305911555784590292102834542], []⟩,
  ⟨45252151208292920325921702912182448873507657373784494756695124550281819666426157771879508334, [.eps 11584550709322987603435955945518706911617960287688830657713951884872145834605096389601154528628, .cls 8 45252151208292920325921702912182448873507657373784494756695124550281819666426157771879508334], []⟩,
  ⟨11584550709322987603435955945518706911617960287688830657713951884872145834605096389601154528628, [.eps 146217586546163942484823417247124158066740197539312020194525917751], []⟩,
  ⟨146217586546163942484823417247124158066740197539312020194525917752, [.eps 45252151208292920325921702912182448873507657373784494756695124550281819666426157771913062766], []⟩,
  ⟨2697238398092563171739679748546031050295094095098048136037305911555784590292102834542, [.cls 0 2697238398092563171739679748546031050295094095098048136037305911555784590292102837809], []⟩,
  ⟨2697238398092563171739679748546031050295094095098048136037305911555784590292102837809, [.eps 2697238398092563171739679748546031050295094095098048136037305911555784590292102816561, .eps 690493029911696171965358015627783948875544088345100322825550313358280855114778326037876, .cls 0 2697238398092563171739679748546031050295094095098048136037305911555784590292102837809], []⟩,
  ⟨2697238398092563171739679748546031050295094095098048136037305911555784590292102816561, [], [bs "COPY_TO_VALUE"]⟩,
  ⟨690493029911696171965358015627783948875544088345100322825550313358280855114778326037876, [.eps 146217586546163942484823417247124158066740197539312020194525917752], []⟩,
  ⟨45252151208292920325921702912182448873507657373784494756695124550281819666426157771913062766, [.eps 11584550709322987603435955945518706911617960287688830657713951884872145834605096389609744463220, .cls 8 45252151208292920325921702912182448873507657373784494756695124550281819666426157771913062766], []⟩,
  ⟨11584550709322987603435955945518706911617960287688830657713951884872145834605096389609744463220, [.eps 10536087492549074889608124017757933790215211308976750531395693529954563468418703724], []⟩,
  ⟨146217586546163942484823417247124158066740197539312020194525917753, [.eps 146217586546163942484823417247124158066740197539312020194525918000], []⟩,
  ⟨45252151208292920325921702912182448873507657373784494756695124550281819666426157771929839982, [.eps 11584550709322987603435955945518706911617960287688830657713951884872145834605096389614039430516, .cls 8 45252151208292920325921702912182448873507657373784494756695124550281819666426157771929839982], []⟩,
  ⟨11584550709322987603435955945518706911617960287688830657713951884872145834605096389614039430516, [.eps 146217586546163942484823417247124158066740197539312020194525917753], []⟩,
  ⟨146217586546163942484823417247124158066740197539312020194525918000, [.token 0 10536087492549074889608124017757933790215211308976750531395693529954563468418703724], []⟩,
  ⟨690493029911696171965358015627783948875544088345100322825549083913372921390543160636773, [.eps 45252151208292920325921702912182448873507657373784494756695124550281819666426157771996948846, .eps 45252151208292920325921702912182448873507657373784494756695124550281819666426157771946617198], []⟩,
  ⟨146217586546163942484823417247124158066740197539312020194525918001, [.eps 690493029911696171965358015627783948875544088345100322825548791268563079770782691125614], []⟩,
  ⟨45252151208292920325921702912182448873507657373784494756695124550281819666426157771946617198, [.eps 11584550709322987603435955945518706911617960287688830657713951884872145834605096389618334397812, .cls 8 45252151208292920325921702912182448873507657373784494756695124550281819666426157771946617198], []⟩,
  ⟨11584550709322987603435955945518706911617960287688830657713951884872145834605096389618334397812, [.eps 146217586546163942484823417247124158066740197539312020194525918001], []⟩,
  ⟨146217586546163942484823417247124158066740197539312020194525918002, [.eps 45252151208292920325921702912182448873507657373784494756695124550281819666426157771980171630], []⟩,
  ⟨690493029911696171965358015627783948875544088345100322825548791268563079770782691125614, [.cls 11 176766215657394220023131652000712690912139286616345682643340490564752148421320368928683568], []⟩,
  ⟨176766215657394220023131652000712690912139286616345682643340490564752148421320368928683568, [.eps 3260761141110101380810070295609318043917241672128939891055895418380459513323460461906666355193902699476052334, .cls 1 176766215657394220023131652000712690912139286616345682643340490564752148421320368928683569, .cls 0 176766215657394220023131652000712690912139286616345682643340490564752148421320368928683569], []⟩,
  ⟨3260761141110101380810070295609318043917241672128939891055895418380459513323460461906666355193902699476052334, [.cls 6 3260761141110101380810070295609318043917241672128939891055895418380459513323460461906666355193902699476034354, .cls 4 3260761141110101380810070295609318043917241672128939891055895418380459513323460461906666355193902699476034353], []⟩,
  ⟨3260761141110101380810070295609318043917241672128939891055895418380459513323460461906666355193902699476034353, [.cls 5 834754852124185953487377995675985419242813868065008612110309227105397635410805878248106586929639091065869792628], []⟩,
  ⟨3260761141110101380810070295609318043917241672128939891055895418380459513323460461906666355193902699476034354, [.cls 7 834754852124185953487377995675985419242813868065008612110309227105397635410805878248106586929639091065869792628], []⟩,
  ⟨834754852124185953487377995675985419242813868065008612110309227105397635410805878248106586929639091065869792628, [.eps 176766215657394220023131652000712690912139286616345682643340490564752148421320368928683569], []⟩,
  ⟨176766215657394220023131652000712690912139286616345682643340490564752148421320368928683569, [.eps 690493029911696171965358015627783948875544088345100322825548791268563079770782691107633, .eps 3260761141110101380810070295609318043917241672128939891055895418380459513323460461906666355193902699492829550, .cls 1 176766215657394220023131652000712690912139286616345682643340490564752148421320368928683569, .cls 0 176766215657394220023131652000712690912139286616345682643340490564752148421320368928683569, .eps 176766215657394220023131652000712690912139286616345682643340490564752148421320368928683570], []⟩,
  ⟨690493029911696171965358015627783948875544088345100322825548791268563079770782691107633, [], [bs "COPY_TO_VALUE"]⟩,
  ⟨3260761141110101380810070295609318043917241672128939891055895418380459513323460461906666355193902699492829550, [.cls 6 3260761141110101380810070295609318043917241672128939891055895418380459513323460461906666355193902699492811570, .cls 4 3260761141110101380810070295609318043917241672128939891055895418380459513323460461906666355193902699492811569], []⟩,
  ⟨3260761141110101380810070295609318043917241672128939891055895418380459513323460461906666355193902699492811569, [.cls 5 834754852124185953487377995675985419242813868065008612110309227105397635410805878248106586929639091070164759924], []⟩,
  ⟨3260761141110101380810070295609318043917241672128939891055895418380459513323460461906666355193902699492811570, [.cls 7 834754852124185953487377995675985419242813868065008612110309227105397635410805878248106586929639091070164759924], []⟩,
  ⟨834754852124185953487377995675985419242813868065008612110309227105397635410805878248106586929639091070164759924, [.eps 176766215657394220023131652000712690912139286616345682643340490564752148421320368928683569], []⟩,
  ⟨176766215657394220023131652000712690912139286616345682643340490564752148421320368928683570, [.cls 12 176766215657394220023131652000712690912139286616345682643340490564752148421320368928552308], []⟩,
  ⟨176766215657394220023131652000712690912139286616345682643340490564752148421320368928552308, [.eps 146217586546163942484823417247124158066740197539312020194525918002], []⟩,
  ⟨45252151208292920325921702912182448873507657373784494756695124550281819666426157771980171630, [.eps 11584550709322987603435955945518706911617960287688830657713951884872145834605096389626924332404, .cls 8 45252151208292920325921702912182448873507657373784494756695124550281819666426157771980171630], []⟩,
  ⟨11584550709322987603435955945518706911617960287688830657713951884872145834605096389626924332404, [.eps 690493029911696171965358015627783948875544088345100322825548171179101478828385902687589], []⟩,
  ⟨146217586546163942484823417247124158066740197539312020194525918003, [.eps 2697238398092563171739679748546031050295094095098048136037305911555784590292220275054], []⟩,
  ⟨45252151208292920325921702912182448873507657373784494756695124550281819666426157771996948846, [.eps 11584550709322987603435955945518706911617960287688830657713951884872145834605096389631219299700, .cls 8 45252151208292920325921702912182448873507657373784494756695124550281819666426157771996948846], []⟩,
  ⟨11584550709322987603435955945518706911617960287688830657713951884872145834605096389631219299700, [.eps 146217586546163942484823417247124158066740197539312020194525918003], []⟩,
  ⟨146217586546163942484823417247124158066740197539312020194525918004, [.eps 45252151208292920325921702912182448873507657373784494756695124550281819666426157772030503278], []⟩,
  ⟨2697238398092563171739679748546031050295094095098048136037305911555784590292220275054, [.cls 0 2697238398092563171739679748546031050295094095098048136037305911555784590292220278321], []⟩,
  ⟨2697238398092563171739679748546031050295094095098048136037305911555784590292220278321, [.eps 2697238398092563171739679748546031050295094095098048136037305911555784590292220257073, .eps 690493029911696171965358015627783948875544088345100322825550313358280855114808390808948, .cls 0 2697238398092563171739679748546031050295094095098048136037305911555784590292220278321], []⟩,
  ⟨2697238398092563171739679748546031050295094095098048136037305911555784590292220257073, [], [bs "COPY_TO_VALUE"]⟩,
  ⟨690493029911696171965358015627783948875544088345100322825550313358280855114808390808948, [.eps 146217586546163942484823417247124158066740197539312020194525918004], []⟩,
  ⟨45252151208292920325921702912182448873507657373784494756695124550281819666426157772030503278, [.eps 11584550709322987603435955945518706911617960287688830657713951884872145834605096389639809234292, .cls 8 45252151208292920325921702912182448873507657373784494756695124550281819666426157772030503278], []⟩,
  ⟨11584550709322987603435955945518706911617960287688830657713951884872145834605096389639809234292, [.eps 690493029911696171965358015627783948875544088345100322825548171179101478828385902687589], []⟩,
  ⟨2697238398092563171739679748546031050295094095098048136037301109036612966429360350580, [.eps 45252151208292920325921702912182448873507657373784494756695124550281819666426157776224807278, .eps 45252151208292920325921702912182448873507657373784494756695124550281819666426157776174475630], []⟩,
  ⟨146217586546163942484823417247124158066740197539312020194525918005, [.cls 28 146217586546163942484823417247124158066740197539312020194525918006], []⟩,
  ⟨45252151208292920325921702912182448873507657373784494756695124550281819666426157776174475630, [.eps 11584550709322987603435955945518706911617960287688830657713951884872145834605096390700666156404, .cls 8 45252151208292920325921702912182448873507657373784494756695124550281819666426157776174475630], []⟩,
  ⟨11584550709322987603435955945518706911617960287688830657713951884872145834605096390700666156404, [.eps 146217586546163942484823417247124158066740197539312020194525918005], []⟩,
  ⟨146217586546163942484823417247124158066740197539312020194525918006, [.cls 29 146217586546163942484823417247124158066740197539312020194525918007], []⟩,
  ⟨146217586546163942484823417247124158066740197539312020194525918007, [.eps 2697238398092563171739679748546031050295094095098048136037305911555784590296397801838], []⟩,
  ⟨146217586546163942484823417247124158066740197539312020194525918008, [.eps 45252151208292920325921702912182448873507657373784494756695124550281819666426157776208030062], []⟩,
  ⟨2697238398092563171739679748546031050295094095098048136037305911555784590296397801838, [.cls 0 2697238398092563171739679748546031050295094095098048136037305911555784590296397805105], []⟩,
  ⟨2697238398092563171739679748546031050295094095098048136037305911555784590296397805105, [.eps 2697238398092563171739679748546031050295094095098048136037305911555784590296397783857, .eps 690493029911696171965358015627783948875544088345100322825550313358280855115877837665652, .cls 0 2697238398092563171739679748546031050295094095098048136037305911555784590296397805105], []⟩,
  ⟨2697238398092563171739679748546031050295094095098048136037305911555784590296397783857, [], [bs "COPY_TO_VALUE"]⟩,
  ⟨690493029911696171965358015627783948875544088345100322825550313358280855115877837665652, [.eps 146217586546163942484823417247124158066740197539312020194525918008], []⟩,
  ⟨45252151208292920325921702912182448873507657373784494756695124550281819666426157776208030062, [.eps 11584550709322987603435955945518706911617960287688830657713951884872145834605096390709256090996, .cls 8 45252151208292920325921702912182448873507657373784494756695124550281819666426157776208030062], []⟩,
  ⟨11584550709322987603435955945518706911617960287688830657713951884872145834605096390709256090996, [.eps 2697238398092563171739679748546031050295094095098048136037297543668365143920933561716], []⟩,
  ⟨146217586546163942484823417247124158066740197539312020194525918009, [.eps 2697238398092563171739679748546031050295094095098048136037295069038804723348926261614], []⟩,
  ⟨45252151208292920325921702912182448873507657373784494756695124550281819666426157776224807278, [.eps 11584550709322987603435955945518706911617960287688830657713951884872145834605096390713551058292, .cls 8 45252151208292920325921702912182448873507657373784494756695124550281819666426157776224807278], []⟩,
  ⟨11584550709322987603435955945518706911617960287688830657713951884872145834605096390713551058292, [.eps 146217586546163942484823417247124158066740197539312020194525918009], []⟩,
  ⟨146217586546163942484823417247124158066740197539312020194525918256, [.cls 30 146217586546163942484823417247124158066740197539312020194525918257], []⟩,
  ⟨2697238398092563171739679748546031050295094095098048136037295069038804723348926261614, [.cls 3 11584550709322987603435955945518706911617960287688830657713941357823728441713965894726094647857, .cls 2 11584550709322987603435955945518706911617960287688830657713941357823728441713965894726094647857], []⟩,
  ⟨11584550709322987603435955945518706911617960287688830657713941357823728441713965894726094647857, [.eps 2697238398092563171739679748546031050295094095098048136037295069038804723348926243633, .cls 3 11584550709322987603435955945518706911617960287688830657713941357823728441713965894726094647857, .cls 2 11584550709322987603435955945518706911617960287688830657713941357823728441713965894726094647857, .eps 690493029911696171965358015627783948875544088345100322825547537673934009177325123368308], []⟩,
  ⟨2697238398092563171739679748546031050295094095098048136037295069038804723348926243633, [], [bs "COPY_TO_MINOR"]⟩,
  ⟨690493029911696171965358015627783948875544088345100322825547537673934009177325123368308, [.eps 146217586546163942484823417247124158066740197539312020194525918256], []⟩,
  ⟨146217586546163942484823417247124158066740197539312020194525918257, [.cls 31 146217586546163942484823417247124158066740197539312020194525918258], []⟩,
  ⟨146217586546163942484823417247124158066740197539312020194525918258, [.eps 2697238398092563171739679748546031050295094095098048136037305911555784590296464910702], []⟩,
  ⟨146217586546163942484823417247124158066740197539312020194525918259, [.eps 45252151208292920325921702912182448873507657373784494756695124550281819666426157776275138926], []⟩,
  ⟨2697238398092563171739679748546031050295094095098048136037305911555784590296464910702, [.cls 0 2697238398092563171739679748546031050295094095098048136037305911555784590296464913969], []⟩,
  ⟨2697238398092563171739679748546031050295094095098048136037305911555784590296464913969, [.eps 2697238398092563171739679748546031050295094095098048136037305911555784590296464892721, .eps 690493029911696171965358015627783948875544088345100322825550313358280855115895017534836, .cls 0 2697238398092563171739679748546031050295094095098048136037305911555784590296464913969], []⟩,
  ⟨2697238398092563171739679748546031050295094095098048136037305911555784590296464892721, [], [bs "COPY_TO_VALUE"]⟩,
  ⟨690493029911696171965358015627783948875544088345100322825550313358280855115895017534836, [.eps 146217586546163942484823417247124158066740197539312020194525918259], []⟩,
  ⟨45252151208292920325921702912182448873507657373784494756695124550281819666426157776275138926, [.eps 11584550709322987603435955945518706911617960287688830657713951884872145834605096390726435960180, .cls 8 45252151208292920325921702912182448873507657373784494756695124550281819666426157776275138926], []⟩,
  ⟨11584550709322987603435955945518706911617960287688830657713951884872145834605096390726435960180, [.eps 2697238398092563171739679748546031050295094095098048136037297543668365143920933561716], []⟩,
  ⟨12737348207461333518789337092223898609051725281753671449437096876392581585067845620159026421482714418804069, [.eps 45252151208292920325921702912182448873507657373784494756695124550281819666426157776291916142], []⟩,
  ⟨146217586546163942484823417247124158066740197539312020194525918260, [.eps 2697238398092563171739679748546031050295094095098048136037305911555784590296515242350], []⟩,
  ⟨45252151208292920325921702912182448873507657373784494756695124550281819666426157776291916142, [.eps 11584550709322987603435955945518706911617960287688830657713951884872145834605096390730730927476, .cls 8 45252151208292920325921702912182448873507657373784494756695124550281819666426157776291916142], []⟩,
  ⟨11584550709322987603435955945518706911617960287688830657713951884872145834605096390730730927476, [.eps 146217586546163942484823417247124158066740197539312020194525918260], []⟩,
  ⟨146217586546163942484823417247124158066740197539312020194525918261, [.eps 45252151208292920325921702912182448873507657373784494756695124550281819666426157776325470574], []⟩,
  ⟨2697238398092563171739679748546031050295094095098048136037305911555784590296515242350, [.cls 0 2697238398092563171739679748546031050295094095098048136037305911555784590296515245617], []⟩,
  ⟨2697238398092563171739679748546031050295094095098048136037305911555784590296515245617, [.eps 2697238398092563171739679748546031050295094095098048136037305911555784590296515224369, .eps 690493029911696171965358015627783948875544088345100322825550313358280855115907902436724, .cls 0 2697238398092563171739679748546031050295094095098048136037305911555784590296515245617], []⟩,
  ⟨2697238398092563171739679748546031050295094095098048136037305911555784590296515224369, [], [bs "COPY_TO_VALUE"]⟩,
  ⟨690493029911696171965358015627783948875544088345100322825550313358280855115907902436724, [.eps 146217586546163942484823417247124158066740197539312020194525918261], []⟩,
  ⟨45252151208292920325921702912182448873507657373784494756695124550281819666426157776325470574, [.eps 11584550709322987603435955945518706911617960287688830657713951884872145834605096390739320862068, .cls 8 45252151208292920325921702912182448873507657373784494756695124550281819666426157776325470574], []⟩,
  ⟨11584550709322987603435955945518706911617960287688830657713951884872145834605096390739320862068, [.eps 12737348207461333518789337092223898609051725281753671449437080039417068980379134007338354471472310065722725], []⟩,
  ⟨10536087492549074889608124017757933790215211308976750531395693529954563468418703724, [.eps 146217586546163942484823417247124158066740197539312020194530915700, .eps 146217586546163942484823417247124158066740197539312020194525918262], []⟩,
  ⟨146217586546163942484823417247124158066740197539312020194525918262, [], [bs "GOT_NAMEVALUE"]⟩,
  ⟨690493029911696171965358015627783948875544088345100322825548171179101478828385902687589, [.eps 146217586546163942484823417247124158066740197539312020194530915700, .eps 146217586546163942484823417247124158066740197539312020194525918263], []⟩,
  ⟨146217586546163942484823417247124158066740197539312020194525918263, [], [bs "GOT_NAMEVALUE_CONT"]⟩,
  ⟨2697238398092563171739679748546031050295094095098048136037297543668365143920933561716, [.eps 146217586546163942484823417247124158066740197539312020194530915700, .eps 146217586546163942484823417247124158066740197539312020194525918264], []⟩,
  ⟨146217586546163942484823417247124158066740197539312020194525918264, [], [bs "GOT_NAMEVALUE_CSET"]⟩,
  ⟨12737348207461333518789337092223898609051725281753671449437080039417068980379134007338354471472310065722725, [.eps 146217586546163942484823417247124158066740197539312020194530915700, .eps 146217586546163942484823417247124158066740197539312020194525918265], []⟩,
  ⟨146217586546163942484823417247124158066740197539312020194525918265, [], [bs "GOT_NAMEVALUE_CCONT"]⟩,
  ⟨146217586546163942484823417247124158066740197539312020194530915700, [.eps 1845525402912616395719345849232225652], []⟩,
  ⟨519469219803752730814577692964647887900183440025966, [.cls 2 8715247305999037175466025903649577979245164012959941092657], []⟩,
  ⟨8715247305999037175466025903649577979245164012959941092657, [.eps 132984120269760699088531889398949859302446960647042420, .cls 9 8715247305999037175466025903649577979245164012959941092658, .cls 2 8715247305999037175466025903649577979245164012959941092657, .eps 519469219803752730814577692964647887900183440007986, .eps 519469219803752730814577692964647887900183440007985], []⟩,
  ⟨519469219803752730814577692964647887900183440007985, [], [bs "COPY_TO_NAME"]⟩,
  ⟨519469219803752730814577692964647887900183440007986, [], [bs "GOT_NAME"]⟩,
  ⟨8715247305999037175466025903649577979245164012959941092658, [.eps 132984120269760699088531889398949859302446960647042420, .cls 2 8715247305999037175466025903649577979245164012959941092657, .cls 10 8715247305999037175466025903649577979245164012959941092658, .eps 519469219803752730814577692964647887900183440007988, .eps 519469219803752730814577692964647887900183440007987], []⟩,
  ⟨519469219803752730814577692964647887900183440007987, [], [bs "COPY_TO_NAME"]⟩,
  ⟨519469219803752730814577692964647887900183440007988, [], [bs "GOT_NAME_TRAILING_SPACE"]⟩,
  ⟨132984120269760699088531889398949859302446960647042420, [.eps 1845525402912616395719345849232225652], []⟩,
  ⟨146217586546163942484823417247118965535287246176381529695603026286, [.eps 2697238398092563171739679748545935264996286814096469266047679973387528550979988253038], []⟩,
  ⟨2697238398092563171739679748545935264996286814096469266047679973387528550979988253038, [.cls 2 45252151208292920325921702912180841862859943078048309713843393212396818205958274619945084209], []⟩,
  ⟨45252151208292920325921702912180841862859943078048309713843393212396818205958274619945084209, [.cls 2 45252151208292920325921702912180841862859943078048309713843393212396818205958274619945084209, .eps 690493029911696171965358015627759427839049424408696132108206073187207309050876993172852], []⟩,
  ⟨690493029911696171965358015627759427839049424408696132108206073187207309050876993172852, [.eps 37431702155817969276114794815262455177033535021153671602074374532975], []⟩,
  ⟨37431702155817969276114794815262455177033535021153671602074374532975, [.cls 32 37431702155817969276114794815262455177033535021153671602074374267250], []⟩,
  ⟨37431702155817969276114794815262455177033535021153671602074374267250, [.eps 2697238398092563171739679748545935264996286814096469266047679973535390733945833154926], []⟩,
  ⟨2697238398092563171739679748545935264996286814096469266047679973535390733945833154926, [.cls 3 11584550709322987603435955945518295516892145427980367286743908663008648700878790440258095772209, .cls 2 11584550709322987603435955945518295516892145427980367286743908663008648700878790440258095772209], []⟩,
  ⟨11584550709322987603435955945518295516892145427980367286743908663008648700878790440258095772209, [.eps 2697238398092563171739679748545935264996286814096469266047679973535390733945833136945, .cls 3 11584550709322987603435955945518295516892145427980367286743908663008648700878790440258095772209, .cls 2 11584550709322987603435955945518295516892145427980367286743908663008648700878790440258095772209, .eps 690493029911696171965358015627759427839049424408696132108206073225060027890133288056180], []⟩,
  ⟨2697238398092563171739679748545935264996286814096469266047679973535390733945833136945, [], [bs "COPY_TO_MINOR"]⟩,
  ⟨690493029911696171965358015627759427839049424408696132108206073225060027890133288056180, [.eps 37431702155817969276114794815262455177033535021153671602074375124340], []⟩,
  ⟨37431702155817969276114794815262455177033535021153671602074375124340, [.eps 146217586546163942484823417247118965535287246176381529695603008305, .eps 1845525402912616395719345849232225652], []⟩,
  ⟨146217586546163942484823417247118965535287246176381529695603008305, [], [bs "GOT_MAJORMINOR"]⟩,
  ⟨1845525402912616395719345849232225652, [.eps 19083568], []⟩, ⟨19083569, [.cls 34 23686706], []⟩,
  ⟨7452553923358143871062719830321518, [.eps 1907853804379684830992056276562703732, .cls 8 7452553923358143871062719830321518], []⟩,
  ⟨1907853804379684830992056276562703732, [.eps 19083569], []⟩], 12, 11⟩

/-- `main` as it is at the end. -/
def nvpMainBlock : Block := ⟨6130067822, [⟨92526, [.eps 29111538763117749496338866661742, .eps 29111538763117749496338799552878, .eps 29111538763117749496338749221230], []⟩,
  ⟨74545, [.eps 7209083605127407795778694606121326], []⟩,
  ⟨29111538763117749496338749221230, [.eps 7452553923358143871062719801030004, .cls 8 29111538763117749496338749221230], []⟩,
  ⟨7452553923358143871062719801030004, [.eps 74545], []⟩, ⟨74546, [.eps 29111538763117749496338782775662], []⟩,
  ⟨7209083605127407795778694606121326, [.eps 571162447445952900331341464316982771953792786311288156922472814, .eps 519469219803752730814577684502167150597779217082734, .eps 146217586546163942484823414865142397088718001932759277673225546094], []⟩,
  ⟨571162447445952900331341464316982771953792786311288156922472814, [.eps 45252151208292920325921702174996407193607350488358300971002098318016151862582378987474807150, .eps 45252151208292920325921702174996407193607350488358300971002098318016151862582378987424475502, .eps 176766215657394220023131649121079715600028712845149613167976946554750593213212418036885870, .eps 176766215657394220023131649121079715600028712845149613167976946554750593213212417969777006, .eps 176766215657394220023131649121079715600028712845149613167976946554750593213212417919445358], []⟩,
  ⟨571162447445952900331341464316982771953792786311288156922454833, [.eps 41156591767769823787531733773900129739201793643913607385004140128326642207451502], []⟩,
  ⟨176766215657394220023131649121079715600028712845149613167976946554750593213212417919445358, [.eps 45252151208292920325921702174996407193607350488358300971002098318016151862582378987378406772, .cls 8 176766215657394220023131649121079715600028712845149613167976946554750593213212417919445358], []⟩,
  ⟨45252151208292920325921702174996407193607350488358300971002098318016151862582378987378406772, [.eps 571162447445952900331341464316982771953792786311288156922454833], []⟩,
  ⟨571162447445952900331341464316982771953792786311288156922454834, [.eps 176766215657394220023131649121079715600028712845149613167976946554750593213212417952999790], []⟩,
  ⟨41156591767769823787531733773900129739201793643913607385004140128326642207451502, [.cls 2 690493029911696171965358004379217639062612159551365676437409619827203794869151922480433], []⟩,
  ⟨690493029911696171965358004379217639062612159551365676437409619827203794869151922480433, [.eps 41156591767769823787531733773900129739201793643913607385004140128326642207433521, .eps 41156591767769823787531733773900129739201793643913607385004140128326642207433522, .cls 2 690493029911696171965358004379217639062612159551365676437409619827203794869151922480433, .cls 9 690493029911696171965358004379217639062612159551365676437409619827203794869151922480434, .eps 10536087492549074889608123846118433213235659172841883490561059872851620405107979636], []⟩,
  ⟨41156591767769823787531733773900129739201793643913607385004140128326642207433521, [], [bs "COPY_TO_NAME"]⟩,
  ⟨41156591767769823787531733773900129739201793643913607385004140128326642207433522, [], [bs "GOT_NAME"]⟩,
  ⟨690493029911696171965358004379217639062612159551365676437409619827203794869151922480434, [.eps 41156591767769823787531733773900129739201793643913607385004140128326642207433523, .eps 41156591767769823787531733773900129739201793643913607385004140128326642207433524, .cls 10 690493029911696171965358004379217639062612159551365676437409619827203794869151922480434, .cls 2 690493029911696171965358004379217639062612159551365676437409619827203794869151922480433, .eps 10536087492549074889608123846118433213235659172841883490561059872851620405107979636], []⟩,
  ⟨41156591767769823787531733773900129739201793643913607385004140128326642207433523, [], [bs "COPY_TO_NAME"]⟩,
  ⟨41156591767769823787531733773900129739201793643913607385004140128326642207433524, [], [bs "GOT_NAME_TRAILING_SPACE"]⟩,
  ⟨10536087492549074889608123846118433213235659172841883490561059872851620405107979636, [.eps 571162447445952900331341464316982771953792786311288156922454834], []⟩,
  ⟨571162447445952900331341464316982771953792786311288156922454835, [.cls 15 10536087492549074889608123846118433213235659172841883490561078891875499840528802156], []⟩,
  ⟨176766215657394220023131649121079715600028712845149613167976946554750593213212417952999790, [.eps 45252151208292920325921702174996407193607350488358300971002098318016151862582378995968341364, .cls 8 176766215657394220023131649121079715600028712845149613167976946554750593213212417952999790], []⟩,
  ⟨45252151208292920325921702174996407193607350488358300971002098318016151862582378995968341364, [.eps 571162447445952900331341464316982771953792786311288156922454835], []⟩,
  ⟨571162447445952900331341464316982771953792786311288156922454836, [.eps 41156591767769823787531733773900129739201793643913607385004140128326642257783150], []⟩,
  ⟨176766215657394220023131649121079715600028712845149613167976946554750593213212417969777006, [.eps 45252151208292920325921702174996407193607350488358300971002098318016151862582379000263308660, .cls 8 176766215657394220023131649121079715600028712845149613167976946554750593213212417969777006], []⟩,
  ⟨45252151208292920325921702174996407193607350488358300971002098318016151862582379000263308660, [.eps 571162447445952900331341464316982771953792786311288156922454836], []⟩,
  ⟨571162447445952900331341464316982771953792786311288156922454837, [.cls 16 571162447445952900331341464316982771953792786311288156922454838], []⟩,
  ⟨41156591767769823787531733773900129739201793643913607385004140128326642257783150, [.cls 2 690493029911696171965358004379217639062612159551365676437409619827203795713576852612401], []⟩,
  ⟨690493029911696171965358004379217639062612159551365676437409619827203795713576852612401, [.eps 41156591767769823787531733773900129739201793643913607385004140128326642257765169, .eps 41156591767769823787531733773900129739201793643913607385004140128326642257765170, .cls 2 690493029911696171965358004379217639062612159551365676437409619827203795713576852612401, .cls 9 690493029911696171965358004379217639062612159551365676437409619827203795713576852612402, .eps 10536087492549074889608123846118433213235659172841883490561059872851620417992881524], []⟩,
  ⟨41156591767769823787531733773900129739201793643913607385004140128326642257765169, [], [bs "COPY_TO_NAME"]⟩,
  ⟨41156591767769823787531733773900129739201793643913607385004140128326642257765170, [], [bs "GOT_NAME"]⟩,
  ⟨690493029911696171965358004379217639062612159551365676437409619827203795713576852612402, [.eps 41156591767769823787531733773900129739201793643913607385004140128326642257765171, .eps 41156591767769823787531733773900129739201793643913607385004140128326642257765172, .cls 10 690493029911696171965358004379217639062612159551365676437409619827203795713576852612402, .cls 2 690493029911696171965358004379217639062612159551365676437409619827203795713576852612401, .eps 10536087492549074889608123846118433213235659172841883490561059872851620417992881524], []⟩,
  ⟨41156591767769823787531733773900129739201793643913607385004140128326642257765171, [], [bs "COPY_TO_NAME"]⟩,
  ⟨41156591767769823787531733773900129739201793643913607385004140128326642257765172, [], [bs "GOT_NAME_TRAILING_SPACE"]⟩,
  ⟨10536087492549074889608123846118433213235659172841883490561059872851620417992881524, [.eps 571162447445952900331341464316982771953792786311288156922454837], []⟩,
  ⟨571162447445952900331341464316982771953792786311288156922454838, [.eps 2697238398092563171739679704606318902588328748247522173583619275860381177200115607918], []⟩,
  ⟨571162447445952900331341464316982771953792786311288156922454839, [.eps 176766215657394220023131649121079715600028712845149613167976946554750593213212418020108654], []⟩,
  ⟨2697238398092563171739679704606318902588328748247522173583619275860381177200115607918, [.cls 13 690493029911696171965358004379217639062612159551365676437406534620257581363229596022132, .cls 14 2697238398092563171739679704606318902588328748247522173583619275860381177200115607918], []⟩,
  ⟨690493029911696171965358004379217639062612159551365676437406534620257581363229596022132, [.eps 571162447445952900331341464316982771953792786311288156922454839], []⟩,
  ⟨571162447445952900331341464316982771953792786311288156922454840, [.cls 17 690493029911696171965358004379217639062612159551365676437410866257951964910993313527141], []⟩,
  ⟨176766215657394220023131649121079715600028712845149613167976946554750593213212418020108654, [.eps 45252151208292920325921702174996407193607350488358300971002098318016151862582379013148210548, .cls 8 176766215657394220023131649121079715600028712845149613167976946554750593213212418020108654], []⟩,
  ⟨45252151208292920325921702174996407193607350488358300971002098318016151862582379013148210548, [.eps 571162447445952900331341464316982771953792786311288156922454840], []⟩,
  ⟨571162447445952900331341464316982771953792786311288156922454841, [.eps 41156591767769823787531733773900129739201793643913607385004140128326642324892014], []⟩,
  ⟨176766215657394220023131649121079715600028712845149613167976946554750593213212418036885870, [.eps 45252151208292920325921702174996407193607350488358300971002098318016151862582379017443177844, .cls 8 176766215657394220023131649121079715600028712845149613167976946554750593213212418036885870], []⟩,
  ⟨45252151208292920325921702174996407193607350488358300971002098318016151862582379017443177844, [.eps 571162447445952900331341464316982771953792786311288156922454841], []⟩,
  ⟨146217586546163942484823414865147589620170953295689768172148437296, [.cls 18 146217586546163942484823414865147589620170953295689768172148437297], []⟩,
  ⟨41156591767769823787531733773900129739201793643913607385004140128326642324892014, [.cls 2 690493029911696171965358004379217639062612159551365676437409619827203796839476759455025], []⟩,
  ⟨690493029911696171965358004379217639062612159551365676437409619827203796839476759455025, [.eps 41156591767769823787531733773900129739201793643913607385004140128326642324874033, .eps 41156591767769823787531733773900129739201793643913607385004140128326642324874034, .cls 2 690493029911696171965358004379217639062612159551365676437409619827203796839476759455025, .cls 9 690493029911696171965358004379217639062612159551365676437409619827203796839476759455026, .eps 10536087492549074889608123846118433213235659172841883490561059872851620435172750708], []⟩,
  ⟨41156591767769823787531733773900129739201793643913607385004140128326642324874033, [], [bs "COPY_TO_NAME"]⟩,
  ⟨41156591767769823787531733773900129739201793643913607385004140128326642324874034, [], [bs "GOT_NAME"]⟩,
  ⟨690493029911696171965358004379217639062612159551365676437409619827203796839476759455026, [.eps 41156591767769823787531733773900129739201793643913607385004140128326642324874035, .eps 41156591767769823787531733773900129739201793643913607385004140128326642324874036, .cls 10 690493029911696171965358004379217639062612159551365676437409619827203796839476759455026, .cls 2 690493029911696171965358004379217639062612159551365676437409619827203796839476759455025, .eps 10536087492549074889608123846118433213235659172841883490561059872851620435172750708], []⟩,
  ⟨41156591767769823787531733773900129739201793643913607385004140128326642324874035, [], [bs "COPY_TO_NAME"]⟩,
  ⟨41156591767769823787531733773900129739201793643913607385004140128326642324874036, [], [bs "GOT_NAME_TRAILING_SPACE"]⟩,
  ⟨10536087492549074889608123846118433213235659172841883490561059872851620435172750708, [.eps 146217586546163942484823414865147589620170953295689768172148437296], []⟩,
  ⟨146217586546163942484823414865147589620170953295689768172148437297, [.eps 45252151208292920325921702174996407193607350488358300971002098318016151862582378987407698286], []⟩,
  ⟨146217586546163942484823414865147589620170953295689768172148437298, [.cls 19 2697238398092563171739679704606318902588328748247522173583636196320124855181118760308], []⟩,
  ⟨45252151208292920325921702174996407193607350488358300971002098318016151862582378987407698286, [.eps 11584550709322987603435955756799080241563481725019725048576537169412134876821089020776371156340, .cls 8 45252151208292920325921702174996407193607350488358300971002098318016151862582378987407698286], []⟩,
  ⟨11584550709322987603435955756799080241563481725019725048576537169412134876821089020776371156340, [.eps 146217586546163942484823414865147589620170953295689768172148437298], []⟩,
  ⟨146217586546163942484823414865147589620170953295689768172148437299, [.eps 10536087492549074889608123846118433213235659172841883490561059872851620400875858286], []⟩,
  ⟨45252151208292920325921702174996407193607350488358300971002098318016151862582378987424475502, [.eps 11584550709322987603435955756799080241563481725019725048576537169412134876821089020780666123636, .cls 8 45252151208292920325921702174996407193607350488358300971002098318016151862582378987424475502], []⟩,
  ⟨11584550709322987603435955756799080241563481725019725048576537169412134876821089020780666123636, [.eps 146217586546163942484823414865147589620170953295689768172148437299], []⟩,
  ⟨146217586546163942484823414865147589620170953295689768172148437300, [.cls 20 146217586546163942484823414865147589620170953295689768172148437301], []⟩,
  ⟨10536087492549074889608123846118433213235659172841883490561059872851620400875858286, [.cls 2 176766215657394220023131649121079715600028712845149613167976862675764171415500884913513777], []⟩,
  ⟨176766215657394220023131649121079715600028712845149613167976862675764171415500884913513777, [.eps 10536087492549074889608123846118433213235659172841883490561059872851620400875840305, .eps 10536087492549074889608123846118433213235659172841883490561059872851620400875840306, .cls 2 176766215657394220023131649121079715600028712845149613167976862675764171415500884913513777, .cls 9 176766215657394220023131649121079715600028712845149613167976862675764171415500884913513778, .eps 2697238398092563171739679704606318902588328748247522173583631327450014822624220116340], []⟩,
  ⟨10536087492549074889608123846118433213235659172841883490561059872851620400875840305, [], [bs "COPY_TO_NAME"]⟩,
  ⟨10536087492549074889608123846118433213235659172841883490561059872851620400875840306, [], [bs "GOT_NAME"]⟩,
  ⟨176766215657394220023131649121079715600028712845149613167976862675764171415500884913513778, [.eps 10536087492549074889608123846118433213235659172841883490561059872851620400875840307, .eps 10536087492549074889608123846118433213235659172841883490561059872851620400875840308, .cls 10 176766215657394220023131649121079715600028712845149613167976862675764171415500884913513778, .cls 2 176766215657394220023131649121079715600028712845149613167976862675764171415500884913513777, .eps 2697238398092563171739679704606318902588328748247522173583631327450014822624220116340], []⟩,
  ⟨10536087492549074889608123846118433213235659172841883490561059872851620400875840307, [], [bs "COPY_TO_NAME"]⟩,
  ⟨10536087492549074889608123846118433213235659172841883490561059872851620400875840308, [], [bs "GOT_NAME_TRAILING_SPACE"]⟩,
  ⟨2697238398092563171739679704606318902588328748247522173583631327450014822624220116340, [.eps 146217586546163942484823414865147589620170953295689768172148437300], []⟩,
  ⟨146217586546163942484823414865147589620170953295689768172148437301, [.cls 21 146217586546163942484823414865147589620170953295689768172148437302], []⟩,
  ⟨146217586546163942484823414865147589620170953295689768172148437302, [.cls 22 146217586546163942484823414865147589620170953295689768172148437303], []⟩,
  ⟨146217586546163942484823414865147589620170953295689768172148437303, [.eps 45252151208292920325921702174996407193607350488358300971002098318016151862582378987458029934], []⟩,
  ⟨146217586546163942484823414865147589620170953295689768172148437304, [.cls 23 2697238398092563171739679704606318902588328748247522173583636196320124855181118760308], []⟩,
  ⟨45252151208292920325921702174996407193607350488358300971002098318016151862582378987458029934, [.eps 11584550709322987603435955756799080241563481725019725048576537169412134876821089020789256058228, .cls 8 45252151208292920325921702174996407193607350488358300971002098318016151862582378987458029934], []⟩,
  ⟨11584550709322987603435955756799080241563481725019725048576537169412134876821089020789256058228, [.eps 146217586546163942484823414865147589620170953295689768172148437304], []⟩,
  ⟨146217586546163942484823414865147589620170953295689768172148437305, [.eps 10536087492549074889608123846118433213235659172841883490561059872851620400926189934], []⟩,
  ⟨45252151208292920325921702174996407193607350488358300971002098318016151862582378987474807150, [.eps 11584550709322987603435955756799080241563481725019725048576537169412134876821089020793551025524, .cls 8 45252151208292920325921702174996407193607350488358300971002098318016151862582378987474807150], []⟩,
  ⟨11584550709322987603435955756799080241563481725019725048576537169412134876821089020793551025524, [.eps 146217586546163942484823414865147589620170953295689768172148437305], []⟩,
  ⟨146217586546163942484823414865147589620170953295689768172148437552, [.cls 24 146217586546163942484823414865147589620170953295689768172148437553], []⟩,
  ⟨10536087492549074889608123846118433213235659172841883490561059872851620400926189934, [.cls 2 176766215657394220023131649121079715600028712845149613167976862675764171416345309843645745], []⟩,
  ⟨176766215657394220023131649121079715600028712845149613167976862675764171416345309843645745, [.eps 10536087492549074889608123846118433213235659172841883490561059872851620400926171953, .eps 10536087492549074889608123846118433213235659172841883490561059872851620400926171954, .cls 2 176766215657394220023131649121079715600028712845149613167976862675764171416345309843645745, .cls 9 176766215657394220023131649121079715600028712845149613167976862675764171416345309843645746, .eps 2697238398092563171739679704606318902588328748247522173583631327450014822637105018228], []⟩,
  ⟨10536087492549074889608123846118433213235659172841883490561059872851620400926171953, [], [bs "COPY_TO_NAME"]⟩,
  ⟨10536087492549074889608123846118433213235659172841883490561059872851620400926171954, [], [bs "GOT_NAME"]⟩,
  ⟨176766215657394220023131649121079715600028712845149613167976862675764171416345309843645746, [.eps 10536087492549074889608123846118433213235659172841883490561059872851620400926171955, .eps 10536087492549074889608123846118433213235659172841883490561059872851620400926171956, .cls 10 176766215657394220023131649121079715600028712845149613167976862675764171416345309843645746, .cls 2 176766215657394220023131649121079715600028712845149613167976862675764171416345309843645745, .eps 2697238398092563171739679704606318902588328748247522173583631327450014822637105018228], []⟩,
  ⟨10536087492549074889608123846118433213235659172841883490561059872851620400926171955, [], [bs "COPY_TO_NAME"]⟩,
  ⟨10536087492549074889608123846118433213235659172841883490561059872851620400926171956, [], [bs "GOT_NAME_TRAILING_SPACE"]⟩,
  ⟨2697238398092563171739679704606318902588328748247522173583631327450014822637105018228, [.eps 146217586546163942484823414865147589620170953295689768172148437552], []⟩,
  ⟨146217586546163942484823414865147589620170953295689768172148437553, [.cls 25 146217586546163942484823414865147589620170953295689768172148437554], []⟩,
  ⟨146217586546163942484823414865147589620170953295689768172148437554, [.cls 26 146217586546163942484823414865147589620170953295689768172148437555], []⟩,
  ⟨146217586546163942484823414865147589620170953295689768172148437555, [.eps 45252151208292920325921702174996407193607350488358300971002098318016151862582378987508361582], []⟩,
  ⟨146217586546163942484823414865147589620170953295689768172148437556, [.cls 27 12737348207461333518789336884724474695781103082714466313868366003332769064239954861451035879302386104038757], []⟩,
  ⟨45252151208292920325921702174996407193607350488358300971002098318016151862582378987508361582, [.eps 11584550709322987603435955756799080241563481725019725048576537169412134876821089020802140960116, .cls 8 45252151208292920325921702174996407193607350488358300971002098318016151862582378987508361582], []⟩,
  ⟨11584550709322987603435955756799080241563481725019725048576537169412134876821089020802140960116, [.eps 146217586546163942484823414865147589620170953295689768172148437556], []⟩,
  ⟨10536087492549074889608123846118433213235659172841883490561078891875499840528802156, [.eps 45252151208292920325921702174996407193607350488358300971002098318016151862582378991752997230, .eps 45252151208292920325921702174996407193607350488358300971002098318016151862582378991702665582, .eps 45252151208292920325921702174996407193607350488358300971002098318016151862582378987525138798], []⟩,
  ⟨146217586546163942484823414865147589620170953295689768172148437557, [.eps 690493029911696171965358004379217639062612159551365676437410573613142123291228599380334], []⟩,
  ⟨45252151208292920325921702174996407193607350488358300971002098318016151862582378987525138798, [.eps 11584550709322987603435955756799080241563481725019725048576537169412134876821089020806435927412, .cls 8 45252151208292920325921702174996407193607350488358300971002098318016151862582378987525138798], []⟩,
  ⟨11584550709322987603435955756799080241563481725019725048576537169412134876821089020806435927412, [.eps 146217586546163942484823414865147589620170953295689768172148437557], []⟩,
  ⟨146217586546163942484823414865147589620170953295689768172148437558, [.eps 45252151208292920325921702174996407193607350488358300971002098318016151862582378987558693230], []⟩,
  ⟨690493029911696171965358004379217639062612159551365676437410573613142123291228599380334, [.cls 11 176766215657394220023131649121079715600028712845149613167977106844964383562554521441891888], []⟩,
  ⟨176766215657394220023131649121079715600028712845149613167977106844964383562554521441891888, [.eps 3260761141110101380810070242489465522119962389174903376350300314877147507991500382952304667518327484276697454, .cls 1 176766215657394220023131649121079715600028712845149613167977106844964383562554521441891889, .cls 0 176766215657394220023131649121079715600028712845149613167977106844964383562554521441891889], []⟩,
  ⟨3260761141110101380810070242489465522119962389174903376350300314877147507991500382952304667518327484276697454, [.cls 6 3260761141110101380810070242489465522119962389174903376350300314877147507991500382952304667518327484276679474, .cls 4 3260761141110101380810070242489465522119962389174903376350300314877147507991500382952304667518327484276679473], []⟩,
  ⟨3260761141110101380810070242489465522119962389174903376350300314877147507991500382952304667518327484276679473, [.cls 5 834754852124185953487377982077303173662710371628775264345676880608549762045824098035789994884691835974834943348], []⟩,
  ⟨3260761141110101380810070242489465522119962389174903376350300314877147507991500382952304667518327484276679474, [.cls 7 834754852124185953487377982077303173662710371628775264345676880608549762045824098035789994884691835974834943348], []⟩,
  ⟨834754852124185953487377982077303173662710371628775264345676880608549762045824098035789994884691835974834943348, [.eps 176766215657394220023131649121079715600028712845149613167977106844964383562554521441891889], []⟩,
  ⟨176766215657394220023131649121079715600028712845149613167977106844964383562554521441891889, [.eps 690493029911696171965358004379217639062612159551365676437410573613142123291228599362353, .eps 3260761141110101380810070242489465522119962389174903376350300314877147507991500382952304667518327484293474670, .cls 1 176766215657394220023131649121079715600028712845149613167977106844964383562554521441891889, .cls 0 176766215657394220023131649121079715600028712845149613167977106844964383562554521441891889, .eps 176766215657394220023131649121079715600028712845149613167977106844964383562554521441891890], []⟩,
  ⟨690493029911696171965358004379217639062612159551365676437410573613142123291228599362353, [], [bs "COPY_TO_VALUE"]⟩,
  ⟨3260761141110101380810070242489465522119962389174903376350300314877147507991500382952304667518327484293474670, [.cls 6 3260761141110101380810070242489465522119962389174903376350300314877147507991500382952304667518327484293456690, .cls 4 3260761141110101380810070242489465522119962389174903376350300314877147507991500382952304667518327484293456689], []⟩,
  ⟨3260761141110101380810070242489465522119962389174903376350300314877147507991500382952304667518327484293456689, [.cls 5 834754852124185953487377982077303173662710371628775264345676880608549762045824098035789994884691835979129910644], []⟩,
  ⟨3260761141110101380810070242489465522119962389174903376350300314877147507991500382952304667518327484293456690, [.cls 7 834754852124185953487377982077303173662710371628775264345676880608549762045824098035789994884691835979129910644], []⟩,
  ⟨834754852124185953487377982077303173662710371628775264345676880608549762045824098035789994884691835979129910644, [.eps 176766215657394220023131649121079715600028712845149613167977106844964383562554521441891889], []⟩,
  ⟨176766215657394220023131649121079715600028712845149613167977106844964383562554521441891890, [.cls 12 176766215657394220023131649121079715600028712845149613167977106844964383562554521441760628], []⟩,
  ⟨176766215657394220023131649121079715600028712845149613167977106844964383562554521441760628, [.eps 146217586546163942484823414865147589620170953295689768172148437558], []⟩,
  ⟨45252151208292920325921702174996407193607350488358300971002098318016151862582378987558693230, [.eps 11584550709322987603435955756799080241563481725019725048576537169412134876821089020815025862004, .cls 8 45252151208292920325921702174996407193607350488358300971002098318016151862582378987558693230], []⟩,
  ⟨11584550709322987603435955756799080241563481725019725048576537169412134876821089020815025862004, [.eps 10536087492549074889608123846118433213235659172841883490561064964655781783855260012], []⟩,
  ⟨146217586546163942484823414865147589620170953295689768172148437559, [.eps 2697238398092563171739679704606318902588328748247522173583640998839296479043861244270], []⟩,
  ⟨45252151208292920325921702174996407193607350488358300971002098318016151862582378991702665582, [.eps 11584550709322987603435955756799080241563481725019725048576537169412134876821089021875882784116, .cls 8 45252151208292920325921702174996407193607350488358300971002098318016151862582378991702665582], []⟩,
  ⟨11584550709322987603435955756799080241563481725019725048576537169412134876821089021875882784116, [.eps 146217586546163942484823414865147589620170953295689768172148437559], []⟩,
  ⟨146217586546163942484823414865147589620170953295689768172148437560, [.eps 45252151208292920325921702174996407193607350488358300971002098318016151862582378991736220014], []⟩,
  ⟨2697238398092563171739679704606318902588328748247522173583640998839296479043861244270, [.cls 0 2697238398092563171739679704606318902588328748247522173583640998839296479043861247537], []⟩,
  ⟨2697238398092563171739679704606318902588328748247522173583640998839296479043861247537, [.eps 2697238398092563171739679704606318902588328748247522173583640998839296479043861226289, .eps 690493029911696171965358004379217639062612159551365676437412095702859898635228478928244, .cls 0 2697238398092563171739679704606318902588328748247522173583640998839296479043861247537], []⟩,
  ⟨2697238398092563171739679704606318902588328748247522173583640998839296479043861226289, [], [bs "COPY_TO_VALUE"]⟩,
  ⟨690493029911696171965358004379217639062612159551365676437412095702859898635228478928244, [.eps 146217586546163942484823414865147589620170953295689768172148437560], []⟩,
  ⟨45252151208292920325921702174996407193607350488358300971002098318016151862582378991736220014, [.eps 11584550709322987603435955756799080241563481725019725048576537169412134876821089021884472718708, .cls 8 45252151208292920325921702174996407193607350488358300971002098318016151862582378991736220014], []⟩,
  ⟨11584550709322987603435955756799080241563481725019725048576537169412134876821089021884472718708, [.eps 10536087492549074889608123846118433213235659172841883490561064964655781783855260012], []⟩,
  ⟨146217586546163942484823414865147589620170953295689768172148437561, [.eps 146217586546163942484823414865147589620170953295689768172148437808], []⟩,
  ⟨45252151208292920325921702174996407193607350488358300971002098318016151862582378991752997230, [.eps 11584550709322987603435955756799080241563481725019725048576537169412134876821089021888767686004, .cls 8 45252151208292920325921702174996407193607350488358300971002098318016151862582378991752997230], []⟩,
  ⟨11584550709322987603435955756799080241563481725019725048576537169412134876821089021888767686004, [.eps 146217586546163942484823414865147589620170953295689768172148437561], []⟩,
  ⟨146217586546163942484823414865147589620170953295689768172148437808, [.token 0 10536087492549074889608123846118433213235659172841883490561064964655781783855260012], []⟩,
  ⟨690493029911696171965358004379217639062612159551365676437410866257951964910993313527141, [.eps 45252151208292920325921702174996407193607350488358300971002098318016151862582378991820106094, .eps 45252151208292920325921702174996407193607350488358300971002098318016151862582378991769774446], []⟩,
  ⟨146217586546163942484823414865147589620170953295689768172148437809, [.eps 690493029911696171965358004379217639062612159551365676437410573613142123291232844015982], []⟩,
  ⟨45252151208292920325921702174996407193607350488358300971002098318016151862582378991769774446, [.eps 11584550709322987603435955756799080241563481725019725048576537169412134876821089021893062653300, .cls 8 45252151208292920325921702174996407193607350488358300971002098318016151862582378991769774446], []⟩,
  ⟨11584550709322987603435955756799080241563481725019725048576537169412134876821089021893062653300, [.eps 146217586546163942484823414865147589620170953295689768172148437809], []⟩,
  ⟨146217586546163942484823414865147589620170953295689768172148437810, [.eps 45252151208292920325921702174996407193607350488358300971002098318016151862582378991803328878], []⟩,
  ⟨690493029911696171965358004379217639062612159551365676437410573613142123291232844015982, [.cls 11 176766215657394220023131649121079715600028712845149613167977106844964383562555608068617776], []⟩,
  ⟨176766215657394220023131649121079715600028712845149613167977106844964383562555608068617776, [.eps 3260761141110101380810070242489465522119962389174903376350300314877147507991520427677420776395738650896132462, .cls 1 176766215657394220023131649121079715600028712845149613167977106844964383562555608068617777, .cls 0 176766215657394220023131649121079715600028712845149613167977106844964383562555608068617777], []⟩,
  ⟨3260761141110101380810070242489465522119962389174903376350300314877147507991520427677420776395738650896132462, [.cls 6 3260761141110101380810070242489465522119962389174903376350300314877147507991520427677420776395738650896114482, .cls 4 3260761141110101380810070242489465522119962389174903376350300314877147507991520427677420776395738650896114481], []⟩,
  ⟨3260761141110101380810070242489465522119962389174903376350300314877147507991520427677420776395738650896114481, [.cls 5 834754852124185953487377982077303173662710371628775264345676880608549762045829229485419718757309094629410305396], []⟩,
  ⟨3260761141110101380810070242489465522119962389174903376350300314877147507991520427677420776395738650896114482, [.cls 7 834754852124185953487377982077303173662710371628775264345676880608549762045829229485419718757309094629410305396], []⟩,
  ⟨834754852124185953487377982077303173662710371628775264345676880608549762045829229485419718757309094629410305396, [.eps 176766215657394220023131649121079715600028712845149613167977106844964383562555608068617777], []⟩,
  ⟨176766215657394220023131649121079715600028712845149613167977106844964383562555608068617777, [.eps 690493029911696171965358004379217639062612159551365676437410573613142123291232843998001, .eps 3260761141110101380810070242489465522119962389174903376350300314877147507991520427677420776395738650912909678, .cls 1 176766215657394220023131649121079715600028712845149613167977106844964383562555608068617777, .cls 0 176766215657394220023131649121079715600028712845149613167977106844964383562555608068617777, .eps 176766215657394220023131649121079715600028712845149613167977106844964383562555608068617778], []⟩,
  ⟨690493029911696171965358004379217639062612159551365676437410573613142123291232843998001, [], [bs "COPY_TO_VALUE"]⟩,
  ⟨3260761141110101380810070242489465522119962389174903376350300314877147507991520427677420776395738650912909678, [.cls 6 3260761141110101380810070242489465522119962389174903376350300314877147507991520427677420776395738650912891698, .cls 4 3260761141110101380810070242489465522119962389174903376350300314877147507991520427677420776395738650912891697], []⟩,
  ⟨3260761141110101380810070242489465522119962389174903376350300314877147507991520427677420776395738650912891697, [.cls 5 834754852124185953487377982077303173662710371628775264345676880608549762045829229485419718757309094633705272692], []⟩,
  ⟨3260761141110101380810070242489465522119962389174903376350300314877147507991520427677420776395738650912891698, [.cls 7 834754852124185953487377982077303173662710371628775264345676880608549762045829229485419718757309094633705272692], []⟩,
  ⟨834754852124185953487377982077303173662710371628775264345676880608549762045829229485419718757309094633705272692, [.eps 176766215657394220023131649121079715600028712845149613167977106844964383562555608068617777], []⟩,
  ⟨176766215657394220023131649121079715600028712845149613167977106844964383562555608068617778, [.cls 12 176766215657394220023131649121079715600028712845149613167977106844964383562555608068486516], []⟩,
  ⟨176766215657394220023131649121079715600028712845149613167977106844964383562555608068486516, [.eps 146217586546163942484823414865147589620170953295689768172148437810], []⟩,
  ⟨45252151208292920325921702174996407193607350488358300971002098318016151862582378991803328878, [.eps 11584550709322987603435955756799080241563481725019725048576537169412134876821089021901652587892, .cls 8 45252151208292920325921702174996407193607350488358300971002098318016151862582378991803328878], []⟩,
  ⟨11584550709322987603435955756799080241563481725019725048576537169412134876821089021901652587892, [.eps 690493029911696171965358004379217639062612159551365676437409953523680522348836055577957], []⟩,
  ⟨146217586546163942484823414865147589620170953295689768172148437811, [.eps 2697238398092563171739679704606318902588328748247522173583640998839296479043978684782], []⟩,
  ⟨45252151208292920325921702174996407193607350488358300971002098318016151862582378991820106094, [.eps 11584550709322987603435955756799080241563481725019725048576537169412134876821089021905947555188, .cls 8 45252151208292920325921702174996407193607350488358300971002098318016151862582378991820106094], []⟩,
  ⟨11584550709322987603435955756799080241563481725019725048576537169412134876821089021905947555188, [.eps 146217586546163942484823414865147589620170953295689768172148437811], []⟩,
  ⟨146217586546163942484823414865147589620170953295689768172148437812, [.eps 45252151208292920325921702174996407193607350488358300971002098318016151862582378991853660526], []⟩,
  ⟨2697238398092563171739679704606318902588328748247522173583640998839296479043978684782, [.cls 0 2697238398092563171739679704606318902588328748247522173583640998839296479043978688049], []⟩,
  ⟨2697238398092563171739679704606318902588328748247522173583640998839296479043978688049, [.eps 2697238398092563171739679704606318902588328748247522173583640998839296479043978666801, .eps 690493029911696171965358004379217639062612159551365676437412095702859898635258543699316, .cls 0 2697238398092563171739679704606318902588328748247522173583640998839296479043978688049], []⟩,
  ⟨2697238398092563171739679704606318902588328748247522173583640998839296479043978666801, [], [bs "COPY_TO_VALUE"]⟩,
  ⟨690493029911696171965358004379217639062612159551365676437412095702859898635258543699316, [.eps 146217586546163942484823414865147589620170953295689768172148437812], []⟩,
  ⟨45252151208292920325921702174996407193607350488358300971002098318016151862582378991853660526, [.eps 11584550709322987603435955756799080241563481725019725048576537169412134876821089021914537489780, .cls 8 45252151208292920325921702174996407193607350488358300971002098318016151862582378991853660526], []⟩,
  ⟨11584550709322987603435955756799080241563481725019725048576537169412134876821089021914537489780, [.eps 690493029911696171965358004379217639062612159551365676437409953523680522348836055577957], []⟩,
  ⟨2697238398092563171739679704606318902588328748247522173583636196320124855181118760308, [.eps 45252151208292920325921702174996407193607350488358300971002098318016151862582378996047964526, .eps 45252151208292920325921702174996407193607350488358300971002098318016151862582378995997632878], []⟩,
  ⟨146217586546163942484823414865147589620170953295689768172148437813, [.cls 28 146217586546163942484823414865147589620170953295689768172148437814], []⟩,
  ⟨45252151208292920325921702174996407193607350488358300971002098318016151862582378995997632878, [.eps 11584550709322987603435955756799080241563481725019725048576537169412134876821089022975394411892, .cls 8 45252151208292920325921702174996407193607350488358300971002098318016151862582378995997632878], []⟩,
  ⟨11584550709322987603435955756799080241563481725019725048576537169412134876821089022975394411892, [.eps 146217586546163942484823414865147589620170953295689768172148437813], []⟩,
  ⟨146217586546163942484823414865147589620170953295689768172148437814, [.cls 29 146217586546163942484823414865147589620170953295689768172148437815], []⟩,
  ⟨146217586546163942484823414865147589620170953295689768172148437815, [.eps 2697238398092563171739679704606318902588328748247522173583640998839296479048156211566], []⟩,
  ⟨146217586546163942484823414865147589620170953295689768172148437816, [.eps 45252151208292920325921702174996407193607350488358300971002098318016151862582378996031187310], []⟩,
  ⟨2697238398092563171739679704606318902588328748247522173583640998839296479048156211566, [.cls 0 2697238398092563171739679704606318902588328748247522173583640998839296479048156214833], []⟩,
  ⟨2697238398092563171739679704606318902588328748247522173583640998839296479048156214833, [.eps 2697238398092563171739679704606318902588328748247522173583640998839296479048156193585, .eps 690493029911696171965358004379217639062612159551365676437412095702859898636327990556020, .cls 0 2697238398092563171739679704606318902588328748247522173583640998839296479048156214833], []⟩,
  ⟨2697238398092563171739679704606318902588328748247522173583640998839296479048156193585, [], [bs "COPY_TO_VALUE"]⟩,
  ⟨690493029911696171965358004379217639062612159551365676437412095702859898636327990556020, [.eps 146217586546163942484823414865147589620170953295689768172148437816], []⟩,
  ⟨45252151208292920325921702174996407193607350488358300971002098318016151862582378996031187310, [.eps 11584550709322987603435955756799080241563481725019725048576537169412134876821089022983984346484, .cls 8 45252151208292920325921702174996407193607350488358300971002098318016151862582378996031187310], []⟩,
  ⟨11584550709322987603435955756799080241563481725019725048576537169412134876821089022983984346484, [.eps 2697238398092563171739679704606318902588328748247522173583632630951877032672691971444], []⟩,
  ⟨146217586546163942484823414865147589620170953295689768172148437817, [.eps 2697238398092563171739679704606318902588328748247522173583630156322316612100684671342], []⟩,
  ⟨45252151208292920325921702174996407193607350488358300971002098318016151862582378996047964526, [.eps 11584550709322987603435955756799080241563481725019725048576537169412134876821089022988279313780, .cls 8 45252151208292920325921702174996407193607350488358300971002098318016151862582378996047964526], []⟩,
  ⟨11584550709322987603435955756799080241563481725019725048576537169412134876821089022988279313780, [.eps 146217586546163942484823414865147589620170953295689768172148437817], []⟩,
  ⟨146217586546163942484823414865147589620170953295689768172148438064, [.cls 30 146217586546163942484823414865147589620170953295689768172148438065], []⟩,
  ⟨2697238398092563171739679704606318902588328748247522173583630156322316612100684671342, [.cls 3 11584550709322987603435955756799080241563481725019725048576526642363717483929958527000822903345, .cls 2 11584550709322987603435955756799080241563481725019725048576526642363717483929958527000822903345], []⟩,
  ⟨11584550709322987603435955756799080241563481725019725048576526642363717483929958527000822903345, [.eps 2697238398092563171739679704606318902588328748247522173583630156322316612100684653361, .cls 3 11584550709322987603435955756799080241563481725019725048576526642363717483929958527000822903345, .cls 2 11584550709322987603435955756799080241563481725019725048576526642363717483929958527000822903345, .eps 690493029911696171965358004379217639062612159551365676437409320018513052697775276258676], []⟩,
  ⟨2697238398092563171739679704606318902588328748247522173583630156322316612100684653361, [], [bs "COPY_TO_MINOR"]⟩,
  ⟨690493029911696171965358004379217639062612159551365676437409320018513052697775276258676, [.eps 146217586546163942484823414865147589620170953295689768172148438064], []⟩,
  ⟨146217586546163942484823414865147589620170953295689768172148438065, [.cls 31 146217586546163942484823414865147589620170953295689768172148438066], []⟩,
  ⟨146217586546163942484823414865147589620170953295689768172148438066, [.eps 2697238398092563171739679704606318902588328748247522173583640998839296479048223320430], []⟩,
  ⟨146217586546163942484823414865147589620170953295689768172148438067, [.eps 45252151208292920325921702174996407193607350488358300971002098318016151862582378996098296174], []⟩,
  ⟨2697238398092563171739679704606318902588328748247522173583640998839296479048223320430, [.cls 0 2697238398092563171739679704606318902588328748247522173583640998839296479048223323697], []⟩,
  ⟨2697238398092563171739679704606318902588328748247522173583640998839296479048223323697, [.eps 2697238398092563171739679704606318902588328748247522173583640998839296479048223302449, .eps 690493029911696171965358004379217639062612159551365676437412095702859898636345170425204, .cls 0 2697238398092563171739679704606318902588328748247522173583640998839296479048223323697], []⟩,
  ⟨2697238398092563171739679704606318902588328748247522173583640998839296479048223302449, [], [bs "COPY_TO_VALUE"]⟩,
  ⟨690493029911696171965358004379217639062612159551365676437412095702859898636345170425204, [.eps 146217586546163942484823414865147589620170953295689768172148438067], []⟩,
  ⟨45252151208292920325921702174996407193607350488358300971002098318016151862582378996098296174, [.eps 11584550709322987603435955756799080241563481725019725048576537169412134876821089023001164215668, .cls 8 45252151208292920325921702174996407193607350488358300971002098318016151862582378996098296174], []⟩,
  ⟨11584550709322987603435955756799080241563481725019725048576537169412134876821089023001164215668, [.eps 2697238398092563171739679704606318902588328748247522173583632630951877032672691971444], []⟩,
  ⟨12737348207461333518789336884724474695781103082714466313868366003332769064239954861451035879302386104038757, [.eps 45252151208292920325921702174996407193607350488358300971002098318016151862582378996115073390], []⟩,
  ⟨146217586546163942484823414865147589620170953295689768172148438068, [.eps 2697238398092563171739679704606318902588328748247522173583640998839296479048273652078], []⟩,
  ⟨45252151208292920325921702174996407193607350488358300971002098318016151862582378996115073390, [.eps 11584550709322987603435955756799080241563481725019725048576537169412134876821089023005459182964, .cls 8 45252151208292920325921702174996407193607350488358300971002098318016151862582378996115073390], []⟩,
  ⟨11584550709322987603435955756799080241563481725019725048576537169412134876821089023005459182964, [.eps 146217586546163942484823414865147589620170953295689768172148438068], []⟩,
  ⟨146217586546163942484823414865147589620170953295689768172148438069, [.eps 45252151208292920325921702174996407193607350488358300971002098318016151862582378996148627822], []⟩,
  ⟨2697238398092563171739679704606318902588328748247522173583640998839296479048273652078, [.cls 0 2697238398092563171739679704606318902588328748247522173583640998839296479048273655345], []⟩,
  ⟨2697238398092563171739679704606318902588328748247522173583640998839296479048273655345, [.eps 2697238398092563171739679704606318902588328748247522173583640998839296479048273634097, .eps 690493029911696171965358004379217639062612159551365676437412095702859898636358055327092, .cls 0 2697238398092563171739679704606318902588328748247522173583640998839296479048273655345], []⟩,
  ⟨2697238398092563171739679704606318902588328748247522173583640998839296479048273634097, [], [bs "COPY_TO_VALUE"]⟩,
  ⟨690493029911696171965358004379217639062612159551365676437412095702859898636358055327092, [.eps 146217586546163942484823414865147589620170953295689768172148438069], []⟩,
  ⟨45252151208292920325921702174996407193607350488358300971002098318016151862582378996148627822, [.eps 11584550709322987603435955756799080241563481725019725048576537169412134876821089023014049117556, .cls 8 45252151208292920325921702174996407193607350488358300971002098318016151862582378996148627822], []⟩,
  ⟨11584550709322987603435955756799080241563481725019725048576537169412134876821089023014049117556, [.eps 12737348207461333518789336884724474695781103082714466313868349166357256459551243248630363929291981750957413], []⟩,
  ⟨10536087492549074889608123846118433213235659172841883490561064964655781783855260012, [.eps 146217586546163942484823414865147589620170953295689768172153435508, .eps 146217586546163942484823414865147589620170953295689768172148438070], []⟩,
  ⟨146217586546163942484823414865147589620170953295689768172148438070, [], [bs "GOT_NAMEVALUE"]⟩,
  ⟨690493029911696171965358004379217639062612159551365676437409953523680522348836055577957, [.eps 146217586546163942484823414865147589620170953295689768172153435508, .eps 146217586546163942484823414865147589620170953295689768172148438071], []⟩,
  ⟨146217586546163942484823414865147589620170953295689768172148438071, [], [bs "GOT_NAMEVALUE_CONT"]⟩,
  ⟨2697238398092563171739679704606318902588328748247522173583632630951877032672691971444, [.eps 146217586546163942484823414865147589620170953295689768172153435508, .eps 146217586546163942484823414865147589620170953295689768172148438072], []⟩,
  ⟨146217586546163942484823414865147589620170953295689768172148438072, [], [bs "GOT_NAMEVALUE_CSET"]⟩,
  ⟨12737348207461333518789336884724474695781103082714466313868349166357256459551243248630363929291981750957413, [.eps 146217586546163942484823414865147589620170953295689768172153435508, .eps 146217586546163942484823414865147589620170953295689768172148438073], []⟩,
  ⟨146217586546163942484823414865147589620170953295689768172148438073, [], [bs "GOT_NAMEVALUE_CCONT"]⟩,
  ⟨146217586546163942484823414865147589620170953295689768172153435508, [.eps 1845525402912616395719345819167454580], []⟩,
  ⟨519469219803752730814577684502167150597779217082734, [.cls 2 8715247305999037175466025761672710753683471045329182090545], []⟩,
  ⟨8715247305999037175466025761672710753683471045329182090545, [.eps 132984120269760699088531887232554790553031479573575028, .cls 9 8715247305999037175466025761672710753683471045329182090546, .cls 2 8715247305999037175466025761672710753683471045329182090545, .eps 519469219803752730814577684502167150597779217064754, .eps 519469219803752730814577684502167150597779217064753], []⟩,
  ⟨519469219803752730814577684502167150597779217064753, [], [bs "COPY_TO_NAME"]⟩,
  ⟨519469219803752730814577684502167150597779217064754, [], [bs "GOT_NAME"]⟩,
  ⟨8715247305999037175466025761672710753683471045329182090546, [.eps 132984120269760699088531887232554790553031479573575028, .cls 2 8715247305999037175466025761672710753683471045329182090545, .cls 10 8715247305999037175466025761672710753683471045329182090546, .eps 519469219803752730814577684502167150597779217064756, .eps 519469219803752730814577684502167150597779217064755], []⟩,
  ⟨519469219803752730814577684502167150597779217064755, [], [bs "COPY_TO_NAME"]⟩,
  ⟨519469219803752730814577684502167150597779217064756, [], [bs "GOT_NAME_TRAILING_SPACE"]⟩,
  ⟨132984120269760699088531887232554790553031479573575028, [.eps 1845525402912616395719345819167454580], []⟩,
  ⟨146217586546163942484823414865142397088718001932759277673225546094, [.eps 2697238398092563171739679704606223117289521467245943303594015060671040439731746662766], []⟩,
  ⟨2697238398092563171739679704606223117289521467245943303594015060671040439731746662766, [.cls 2 45252151208292920325921702174994800182959636192622115928150366980131150402114495839768241457], []⟩,
  ⟨45252151208292920325921702174994800182959636192622115928150366980131150402114495839768241457, [.cls 2 45252151208292920325921702174994800182959636192622115928150366980131150402114495839768241457, .eps 690493029911696171965358004379193118026117495614961485720067855531786352571327146063220], []⟩,
  ⟨690493029911696171965358004379193118026117495614961485720067855531786352571327146063220, [.eps 37431702155817969276114794205476453654711808494786375084345739603823], []⟩,
  ⟨37431702155817969276114794205476453654711808494786375084345739603823, [.cls 32 37431702155817969276114794205476453654711808494786375084345739338098], []⟩,
  ⟨37431702155817969276114794205476453654711808494786375084345739338098, [.eps 2697238398092563171739679704606223117289521467245943303594015060818902622697591564654], []⟩,
  ⟨2697238398092563171739679704606223117289521467245943303594015060818902622697591564654, [.cls 3 11584550709322987603435955756798668846837666865311261677606493947548637743094783072532824027697, .cls 2 11584550709322987603435955756798668846837666865311261677606493947548637743094783072532824027697], []⟩,
  ⟨11584550709322987603435955756798668846837666865311261677606493947548637743094783072532824027697, [.eps 2697238398092563171739679704606223117289521467245943303594015060818902622697591546673, .cls 3 11584550709322987603435955756798668846837666865311261677606493947548637743094783072532824027697, .cls 2 11584550709322987603435955756798668846837666865311261677606493947548637743094783072532824027697, .eps 690493029911696171965358004379193118026117495614961485720067855569639071410583440946548], []⟩,
  ⟨2697238398092563171739679704606223117289521467245943303594015060818902622697591546673, [], [bs "COPY_TO_MINOR"]⟩,
  ⟨690493029911696171965358004379193118026117495614961485720067855569639071410583440946548, [.eps 37431702155817969276114794205476453654711808494786375084345740195188], []⟩,
  ⟨37431702155817969276114794205476453654711808494786375084345740195188, [.eps 146217586546163942484823414865142397088718001932759277673225528113, .eps 1845525402912616395719345819167454580], []⟩,
  ⟨146217586546163942484823414865142397088718001932759277673225528113, [], [bs "GOT_MAJORMINOR"]⟩,
  ⟨1845525402912616395719345819167454580, [.eps 74546], []⟩, ⟨74547, [.token 0 6164935730], []⟩,
  ⟨29111538763117749496338782775662, [.eps 7452553923358143871062728390964596, .cls 8 29111538763117749496338782775662], []⟩,
  ⟨7452553923358143871062728390964596, [.eps 74547], []⟩, ⟨74548, [.eps 7209083605127407795778694656452974], []⟩,
  ⟨29111538763117749496338799552878, [.eps 7452553923358143871062732685931892, .cls 8 29111538763117749496338799552878], []⟩,
  ⟨7452553923358143871062732685931892, [.eps 74548], []⟩, ⟨74549, [.eps 29111538763117749496338833107310], []⟩,
  ⟨7209083605127407795778694656452974, [.eps 571162447445952900331341468304666759308540405022709337763506542, .eps 519469219803752730814577688128944609441666741201262, .eps 146217586546163942484823415885989497851533392322883099968530180462], []⟩,
  ⟨571162447445952900331341468304666759308540405022709337763506542, [.eps 45252151208292920325921702490933282199278910582112384022013395274701438064229712750407739758, .eps 45252151208292920325921702490933282199278910582112384022013395274701438064229712750357408110, .eps 176766215657394220023131650355208133590933244461376500085989825291802492438397315548342638, .eps 176766215657394220023131650355208133590933244461376500085989825291802492438397315481233774, .eps 176766215657394220023131650355208133590933244461376500085989825291802492438397315430902126], []⟩,
  ⟨571162447445952900331341468304666759308540405022709337763488561, [.eps 41156591767769823787531734061243043651555954586103674975687112056840227616876910], []⟩,
  ⟨176766215657394220023131650355208133590933244461376500085989825291802492438397315430902126, [.eps 45252151208292920325921702490933282199278910582112384022013395274701438064229712750311339380, .cls 8 176766215657394220023131650355208133590933244461376500085989825291802492438397315430902126], []⟩,
  ⟨45252151208292920325921702490933282199278910582112384022013395274701438064229712750311339380, [.eps 571162447445952900331341468304666759308540405022709337763488561], []⟩,
  ⟨571162447445952900331341468304666759308540405022709337763488562, [.eps 176766215657394220023131650355208133590933244461376500085989825291802492438397315464456558], []⟩,
  ⟨41156591767769823787531734061243043651555954586103674975687112056840227616876910, [.cls 2 690493029911696171965358009200031771839582986177251953460897427393812776217530428384561], []⟩,
  ⟨690493029911696171965358009200031771839582986177251953460897427393812776217530428384561, [.eps 41156591767769823787531734061243043651555954586103674975687112056840227616858929, .eps 41156591767769823787531734061243043651555954586103674975687112056840227616858930, .cls 2 690493029911696171965358009200031771839582986177251953460897427393812776217530428384561, .cls 9 690493029911696171965358009200031771839582986177251953460897427393812776217530428384562, .eps 10536087492549074889608123919678219174798324374042540793775900686551098269920884084], []⟩,
  ⟨41156591767769823787531734061243043651555954586103674975687112056840227616858929, [], [bs "COPY_TO_NAME"]⟩,
  ⟨41156591767769823787531734061243043651555954586103674975687112056840227616858930, [], [bs "GOT_NAME"]⟩,
  ⟨690493029911696171965358009200031771839582986177251953460897427393812776217530428384562, [.eps 41156591767769823787531734061243043651555954586103674975687112056840227616858931, .eps 41156591767769823787531734061243043651555954586103674975687112056840227616858932, .cls 10 690493029911696171965358009200031771839582986177251953460897427393812776217530428384562, .cls 2 690493029911696171965358009200031771839582986177251953460897427393812776217530428384561, .eps 10536087492549074889608123919678219174798324374042540793775900686551098269920884084], []⟩,
  ⟨41156591767769823787531734061243043651555954586103674975687112056840227616858931, [], [bs "COPY_TO_NAME"]⟩,
  ⟨41156591767769823787531734061243043651555954586103674975687112056840227616858932, [], [bs "GOT_NAME_TRAILING_SPACE"]⟩,
  ⟨10536087492549074889608123919678219174798324374042540793775900686551098269920884084, [.eps 571162447445952900331341468304666759308540405022709337763488562], []⟩,
  ⟨571162447445952900331341468304666759308540405022709337763488563, [.cls 15 10536087492549074889608123919678219174798324374042540793775919705574977705341706604], []⟩,
  ⟨176766215657394220023131650355208133590933244461376500085989825291802492438397315464456558, [.eps 45252151208292920325921702490933282199278910582112384022013395274701438064229712758901273972, .cls 8 176766215657394220023131650355208133590933244461376500085989825291802492438397315464456558], []⟩,
  ⟨45252151208292920325921702490933282199278910582112384022013395274701438064229712758901273972, [.eps 571162447445952900331341468304666759308540405022709337763488563], []⟩,
  ⟨571162447445952900331341468304666759308540405022709337763488564, [.eps 41156591767769823787531734061243043651555954586103674975687112056840227667208558], []⟩,
  ⟨176766215657394220023131650355208133590933244461376500085989825291802492438397315481233774, [.eps 45252151208292920325921702490933282199278910582112384022013395274701438064229712763196241268, .cls 8 176766215657394220023131650355208133590933244461376500085989825291802492438397315481233774], []⟩,
  ⟨45252151208292920325921702490933282199278910582112384022013395274701438064229712763196241268, [.eps 571162447445952900331341468304666759308540405022709337763488564], []⟩,
  ⟨571162447445952900331341468304666759308540405022709337763488565, [.cls 16 571162447445952900331341468304666759308540405022709337763488566], []⟩,
  ⟨41156591767769823787531734061243043651555954586103674975687112056840227667208558, [.cls 2 690493029911696171965358009200031771839582986177251953460897427393812777061955358516529], []⟩,
  ⟨690493029911696171965358009200031771839582986177251953460897427393812777061955358516529, [.eps 41156591767769823787531734061243043651555954586103674975687112056840227667190577, .eps 41156591767769823787531734061243043651555954586103674975687112056840227667190578, .cls 2 690493029911696171965358009200031771839582986177251953460897427393812777061955358516529, .cls 9 690493029911696171965358009200031771839582986177251953460897427393812777061955358516530, .eps 10536087492549074889608123919678219174798324374042540793775900686551098282805785972], []⟩,
  ⟨41156591767769823787531734061243043651555954586103674975687112056840227667190577, [], [bs "COPY_TO_NAME"]⟩,
  ⟨41156591767769823787531734061243043651555954586103674975687112056840227667190578, [], [bs "GOT_NAME"]⟩,
  ⟨690493029911696171965358009200031771839582986177251953460897427393812777061955358516530, [.eps 41156591767769823787531734061243043651555954586103674975687112056840227667190579, .eps 41156591767769823787531734061243043651555954586103674975687112056840227667190580, .cls 10 690493029911696171965358009200031771839582986177251953460897427393812777061955358516530, .cls 2 690493029911696171965358009200031771839582986177251953460897427393812777061955358516529, .eps 10536087492549074889608123919678219174798324374042540793775900686551098282805785972], []⟩,
  ⟨41156591767769823787531734061243043651555954586103674975687112056840227667190579, [], [bs "COPY_TO_NAME"]⟩,
  ⟨41156591767769823787531734061243043651555954586103674975687112056840227667190580, [], [bs "GOT_NAME_TRAILING_SPACE"]⟩,
  ⟨10536087492549074889608123919678219174798324374042540793775900686551098282805785972, [.eps 571162447445952900331341468304666759308540405022709337763488565], []⟩,
  ⟨571162447445952900331341468304666759308540405022709337763488566, [.eps 2697238398092563171739679723437624108748371039754890443206618524167447510592219146606], []⟩,
  ⟨571162447445952900331341468304666759308540405022709337763488567, [.eps 176766215657394220023131650355208133590933244461376500085989825291802492438397315531565422], []⟩,
  ⟨2697238398092563171739679723437624108748371039754890443206618524167447510592219146606, [.cls 13 690493029911696171965358009200031771839582986177251953460894342186866562711608101926260, .cls 14 2697238398092563171739679723437624108748371039754890443206618524167447510592219146606], []⟩,
  ⟨690493029911696171965358009200031771839582986177251953460894342186866562711608101926260, [.eps 571162447445952900331341468304666759308540405022709337763488567], []⟩,
  ⟨571162447445952900331341468304666759308540405022709337763488568, [.cls 17 690493029911696171965358009200031771839582986177251953460898673824560946259371819431269], []⟩,
  ⟨176766215657394220023131650355208133590933244461376500085989825291802492438397315531565422, [.eps 45252151208292920325921702490933282199278910582112384022013395274701438064229712776081143156, .cls 8 176766215657394220023131650355208133590933244461376500085989825291802492438397315531565422], []⟩,
  ⟨45252151208292920325921702490933282199278910582112384022013395274701438064229712776081143156, [.eps 571162447445952900331341468304666759308540405022709337763488568], []⟩,
  ⟨571162447445952900331341468304666759308540405022709337763488569, [.eps 41156591767769823787531734061243043651555954586103674975687112056840227734317422], []⟩,
  ⟨176766215657394220023131650355208133590933244461376500085989825291802492438397315548342638, [.eps 45252151208292920325921702490933282199278910582112384022013395274701438064229712780376110452, .cls 8 176766215657394220023131650355208133590933244461376500085989825291802492438397315548342638], []⟩,
  ⟨45252151208292920325921702490933282199278910582112384022013395274701438064229712780376110452, [.eps 571162447445952900331341468304666759308540405022709337763488569], []⟩,
  ⟨146217586546163942484823415885994690382986343685813590467453071664, [.cls 18 146217586546163942484823415885994690382986343685813590467453071665], []⟩,
  ⟨41156591767769823787531734061243043651555954586103674975687112056840227734317422, [.cls 2 690493029911696171965358009200031771839582986177251953460897427393812778187855265359153], []⟩,
  ⟨690493029911696171965358009200031771839582986177251953460897427393812778187855265359153, [.eps 41156591767769823787531734061243043651555954586103674975687112056840227734299441, .eps 41156591767769823787531734061243043651555954586103674975687112056840227734299442, .cls 2 690493029911696171965358009200031771839582986177251953460897427393812778187855265359153, .cls 9 690493029911696171965358009200031771839582986177251953460897427393812778187855265359154, .eps 10536087492549074889608123919678219174798324374042540793775900686551098299985655156], []⟩,
  ⟨41156591767769823787531734061243043651555954586103674975687112056840227734299441, [], [bs "COPY_TO_NAME"]⟩,
  ⟨41156591767769823787531734061243043651555954586103674975687112056840227734299442, [], [bs "GOT_NAME"]⟩,
  ⟨690493029911696171965358009200031771839582986177251953460897427393812778187855265359154, [.eps 41156591767769823787531734061243043651555954586103674975687112056840227734299443, .eps 41156591767769823787531734061243043651555954586103674975687112056840227734299444, .cls 10 690493029911696171965358009200031771839582986177251953460897427393812778187855265359154, .cls 2 690493029911696171965358009200031771839582986177251953460897427393812778187855265359153, .eps 10536087492549074889608123919678219174798324374042540793775900686551098299985655156], []⟩,
  ⟨41156591767769823787531734061243043651555954586103674975687112056840227734299443, [], [bs "COPY_TO_NAME"]⟩,
  ⟨41156591767769823787531734061243043651555954586103674975687112056840227734299444, [], [bs "GOT_NAME_TRAILING_SPACE"]⟩,
  ⟨10536087492549074889608123919678219174798324374042540793775900686551098299985655156, [.eps 146217586546163942484823415885994690382986343685813590467453071664], []⟩,
  ⟨146217586546163942484823415885994690382986343685813590467453071665, [.eps 45252151208292920325921702490933282199278910582112384022013395274701438064229712750340630894], []⟩,
  ⟨146217586546163942484823415885994690382986343685813590467453071666, [.cls 19 2697238398092563171739679723437624108748371039754890443206635444627191188573222298996], []⟩,
  ⟨45252151208292920325921702490933282199278910582112384022013395274701438064229712750340630894, [.eps 11584550709322987603435955837678920243015401109020770309635429190323568144442806464087201903988, .cls 8 45252151208292920325921702490933282199278910582112384022013395274701438064229712750340630894], []⟩,
  ⟨11584550709322987603435955837678920243015401109020770309635429190323568144442806464087201903988, [.eps 146217586546163942484823415885994690382986343685813590467453071666], []⟩,
  ⟨146217586546163942484823415885994690382986343685813590467453071667, [.eps 10536087492549074889608123919678219174798324374042540793775900686551098265688762734], []⟩,
  ⟨45252151208292920325921702490933282199278910582112384022013395274701438064229712750357408110, [.eps 11584550709322987603435955837678920243015401109020770309635429190323568144442806464091496871284, .cls 8 45252151208292920325921702490933282199278910582112384022013395274701438064229712750357408110], []⟩,
  ⟨11584550709322987603435955837678920243015401109020770309635429190323568144442806464091496871284, [.eps 146217586546163942484823415885994690382986343685813590467453071667], []⟩,
  ⟨146217586546163942484823415885994690382986343685813590467453071668, [.cls 20 146217586546163942484823415885994690382986343685813590467453071669], []⟩,
  ⟨10536087492549074889608123919678219174798324374042540793775900686551098265688762734, [.cls 2 176766215657394220023131650355208133590933244461376500085989741412816070640685782424970545], []⟩,
  ⟨176766215657394220023131650355208133590933244461376500085989741412816070640685782424970545, [.eps 10536087492549074889608123919678219174798324374042540793775900686551098265688744753, .eps 10536087492549074889608123919678219174798324374042540793775900686551098265688744754, .cls 2 176766215657394220023131650355208133590933244461376500085989741412816070640685782424970545, .cls 9 176766215657394220023131650355208133590933244461376500085989741412816070640685782424970546, .eps 2697238398092563171739679723437624108748371039754890443206630575757081156016323655028], []⟩,
  ⟨10536087492549074889608123919678219174798324374042540793775900686551098265688744753, [], [bs "COPY_TO_NAME"]⟩,
  ⟨10536087492549074889608123919678219174798324374042540793775900686551098265688744754, [], [bs "GOT_NAME"]⟩,
  ⟨176766215657394220023131650355208133590933244461376500085989741412816070640685782424970546, [.eps 10536087492549074889608123919678219174798324374042540793775900686551098265688744755, .eps 10536087492549074889608123919678219174798324374042540793775900686551098265688744756, .cls 10 176766215657394220023131650355208133590933244461376500085989741412816070640685782424970546, .cls 2 176766215657394220023131650355208133590933244461376500085989741412816070640685782424970545, .eps 2697238398092563171739679723437624108748371039754890443206630575757081156016323655028], []⟩,
  ⟨10536087492549074889608123919678219174798324374042540793775900686551098265688744755, [], [bs "COPY_TO_NAME"]⟩,
  ⟨10536087492549074889608123919678219174798324374042540793775900686551098265688744756, [], [bs "GOT_NAME_TRAILING_SPACE"]⟩,
  ⟨2697238398092563171739679723437624108748371039754890443206630575757081156016323655028, [.eps 146217586546163942484823415885994690382986343685813590467453071668], []⟩,
  ⟨146217586546163942484823415885994690382986343685813590467453071669, [.cls 21 146217586546163942484823415885994690382986343685813590467453071670], []⟩,
  ⟨146217586546163942484823415885994690382986343685813590467453071670, [.cls 22 146217586546163942484823415885994690382986343685813590467453071671], []⟩,
  ⟨146217586546163942484823415885994690382986343685813590467453071671, [.eps 45252151208292920325921702490933282199278910582112384022013395274701438064229712750390962542], []⟩,
  ⟨146217586546163942484823415885994690382986343685813590467453071672, [.cls 23 2697238398092563171739679723437624108748371039754890443206635444627191188573222298996], []⟩,
  ⟨45252151208292920325921702490933282199278910582112384022013395274701438064229712750390962542, [.eps 11584550709322987603435955837678920243015401109020770309635429190323568144442806464100086805876, .cls 8 45252151208292920325921702490933282199278910582112384022013395274701438064229712750390962542], []⟩,
  ⟨11584550709322987603435955837678920243015401109020770309635429190323568144442806464100086805876, [.eps 146217586546163942484823415885994690382986343685813590467453071672], []⟩,
  ⟨146217586546163942484823415885994690382986343685813590467453071673, [.eps 10536087492549074889608123919678219174798324374042540793775900686551098265739094382], []⟩,
  ⟨45252151208292920325921702490933282199278910582112384022013395274701438064229712750407739758, [.eps 11584550709322987603435955837678920243015401109020770309635429190323568144442806464104381773172, .cls 8 45252151208292920325921702490933282199278910582112384022013395274701438064229712750407739758], []⟩,
  ⟨11584550709322987603435955837678920243015401109020770309635429190323568144442806464104381773172, [.eps 146217586546163942484823415885994690382986343685813590467453071673], []⟩,
  ⟨146217586546163942484823415885994690382986343685813590467453071920, [.cls 24 146217586546163942484823415885994690382986343685813590467453071921], []⟩,
  ⟨10536087492549074889608123919678219174798324374042540793775900686551098265739094382, [.cls 2 176766215657394220023131650355208133590933244461376500085989741412816070641530207355102513], []⟩,
  ⟨176766215657394220023131650355208133590933244461376500085989741412816070641530207355102513, [.eps 10536087492549074889608123919678219174798324374042540793775900686551098265739076401, .eps 10536087492549074889608123919678219174798324374042540793775900686551098265739076402, .cls 2 176766215657394220023131650355208133590933244461376500085989741412816070641530207355102513, .cls 9 176766215657394220023131650355208133590933244461376500085989741412816070641530207355102514, .eps 2697238398092563171739679723437624108748371039754890443206630575757081156029208556916], []⟩,
  ⟨10536087492549074889608123919678219174798324374042540793775900686551098265739076401, [], [bs "COPY_TO_NAME"]⟩,
  ⟨10536087492549074889608123919678219174798324374042540793775900686551098265739076402, [], [bs "GOT_NAME"]⟩,
  ⟨176766215657394220023131650355208133590933244461376500085989741412816070641530207355102514, [.eps 10536087492549074889608123919678219174798324374042540793775900686551098265739076403, .eps 10536087492549074889608123919678219174798324374042540793775900686551098265739076404, .cls 10 176766215657394220023131650355208133590933244461376500085989741412816070641530207355102514, .cls 2 176766215657394220023131650355208133590933244461376500085989741412816070641530207355102513, .eps 2697238398092563171739679723437624108748371039754890443206630575757081156029208556916], []⟩,
  ⟨10536087492549074889608123919678219174798324374042540793775900686551098265739076403, [], [bs "COPY_TO_NAME"]⟩,
  ⟨10536087492549074889608123919678219174798324374042540793775900686551098265739076404, [], [bs "GOT_NAME_TRAILING_SPACE"]⟩,
  ⟨2697238398092563171739679723437624108748371039754890443206630575757081156029208556916, [.eps 146217586546163942484823415885994690382986343685813590467453071920], []⟩,
  ⟨146217586546163942484823415885994690382986343685813590467453071921, [.cls 25 146217586546163942484823415885994690382986343685813590467453071922], []⟩,
  ⟨146217586546163942484823415885994690382986343685813590467453071922, [.cls 26 146217586546163942484823415885994690382986343685813590467453071923], []⟩,
  ⟨146217586546163942484823415885994690382986343685813590467453071923, [.eps 45252151208292920325921702490933282199278910582112384022013395274701438064229712750441294190], []⟩,
  ⟨146217586546163942484823415885994690382986343685813590467453071924, [.cls 27 12737348207461333518789336973652799230039941168016982800540679234644117287451908043754460397379669667509605], []⟩,
  ⟨45252151208292920325921702490933282199278910582112384022013395274701438064229712750441294190, [.eps 11584550709322987603435955837678920243015401109020770309635429190323568144442806464112971707764, .cls 8 45252151208292920325921702490933282199278910582112384022013395274701438064229712750441294190], []⟩,
  ⟨11584550709322987603435955837678920243015401109020770309635429190323568144442806464112971707764, [.eps 146217586546163942484823415885994690382986343685813590467453071924], []⟩,
  ⟨10536087492549074889608123919678219174798324374042540793775919705574977705341706604, [.eps 45252151208292920325921702490933282199278910582112384022013395274701438064229712754685929838, .eps 45252151208292920325921702490933282199278910582112384022013395274701438064229712754635598190, .eps 45252151208292920325921702490933282199278910582112384022013395274701438064229712750458071406], []⟩,
  ⟨146217586546163942484823415885994690382986343685813590467453071925, [.eps 690493029911696171965358009200031771839582986177251953460898381179751104639607105284462], []⟩,
  ⟨45252151208292920325921702490933282199278910582112384022013395274701438064229712750458071406, [.eps 11584550709322987603435955837678920243015401109020770309635429190323568144442806464117266675060, .cls 8 45252151208292920325921702490933282199278910582112384022013395274701438064229712750458071406], []⟩,
  ⟨11584550709322987603435955837678920243015401109020770309635429190323568144442806464117266675060, [.eps 146217586546163942484823415885994690382986343685813590467453071925], []⟩,
  ⟨146217586546163942484823415885994690382986343685813590467453071926, [.eps 45252151208292920325921702490933282199278910582112384022013395274701438064229712750491625838], []⟩,
  ⟨690493029911696171965358009200031771839582986177251953460898381179751104639607105284462, [.cls 11 176766215657394220023131650355208133590933244461376500085989985582016282787739418953348656], []⟩,
  ⟨176766215657394220023131650355208133590933244461376500085989985582016282787739418953348656, [.eps 3260761141110101380810070265255116602890224939012347596938412502092852653133760397621981344146112076525234542, .cls 1 176766215657394220023131650355208133590933244461376500085989985582016282787739418953348657, .cls 0 176766215657394220023131650355208133590933244461376500085989985582016282787739418953348657], []⟩,
  ⟨3260761141110101380810070265255116602890224939012347596938412502092852653133760397621981344146112076525234542, [.cls 6 3260761141110101380810070265255116602890224939012347596938412502092852653133760397621981344146112076525216562, .cls 4 3260761141110101380810070265255116602890224939012347596938412502092852653133760397621981344146112076525216561], []⟩,
  ⟨3260761141110101380810070265255116602890224939012347596938412502092852653133760397621981344146112076525216561, [.cls 5 834754852124185953487377987905309850339897584387160984816233600535770279202242661791227224101404691590460437876], []⟩,
  ⟨3260761141110101380810070265255116602890224939012347596938412502092852653133760397621981344146112076525216562, [.cls 7 834754852124185953487377987905309850339897584387160984816233600535770279202242661791227224101404691590460437876], []⟩,
  ⟨834754852124185953487377987905309850339897584387160984816233600535770279202242661791227224101404691590460437876, [.eps 176766215657394220023131650355208133590933244461376500085989985582016282787739418953348657], []⟩,
  ⟨176766215657394220023131650355208133590933244461376500085989985582016282787739418953348657, [.eps 690493029911696171965358009200031771839582986177251953460898381179751104639607105266481, .eps 3260761141110101380810070265255116602890224939012347596938412502092852653133760397621981344146112076542011758, .cls 1 176766215657394220023131650355208133590933244461376500085989985582016282787739418953348657, .cls 0 176766215657394220023131650355208133590933244461376500085989985582016282787739418953348657, .eps 176766215657394220023131650355208133590933244461376500085989985582016282787739418953348658], []⟩,
  ⟨690493029911696171965358009200031771839582986177251953460898381179751104639607105266481, [], [bs "COPY_TO_VALUE"]⟩,
  ⟨3260761141110101380810070265255116602890224939012347596938412502092852653133760397621981344146112076542011758, [.cls 6 3260761141110101380810070265255116602890224939012347596938412502092852653133760397621981344146112076541993778, .cls 4 3260761141110101380810070265255116602890224939012347596938412502092852653133760397621981344146112076541993777], []⟩,
  ⟨3260761141110101380810070265255116602890224939012347596938412502092852653133760397621981344146112076541993777, [.cls 5 834754852124185953487377987905309850339897584387160984816233600535770279202242661791227224101404691594755405172], []⟩,
  ⟨3260761141110101380810070265255116602890224939012347596938412502092852653133760397621981344146112076541993778, [.cls 7 834754852124185953487377987905309850339897584387160984816233600535770279202242661791227224101404691594755405172], []⟩,
  ⟨834754852124185953487377987905309850339897584387160984816233600535770279202242661791227224101404691594755405172, [.eps 176766215657394220023131650355208133590933244461376500085989985582016282787739418953348657], []⟩,
  ⟨176766215657394220023131650355208133590933244461376500085989985582016282787739418953348658, [.cls 12 176766215657394220023131650355208133590933244461376500085989985582016282787739418953217396], []⟩,
  ⟨176766215657394220023131650355208133590933244461376500085989985582016282787739418953217396, [.eps 146217586546163942484823415885994690382986343685813590467453071926], []⟩,
  ⟨45252151208292920325921702490933282199278910582112384022013395274701438064229712750491625838, [.eps 11584550709322987603435955837678920243015401109020770309635429190323568144442806464125856609652, .cls 8 45252151208292920325921702490933282199278910582112384022013395274701438064229712750491625838], []⟩,
  ⟨11584550709322987603435955837678920243015401109020770309635429190323568144442806464125856609652, [.eps 10536087492549074889608123919678219174798324374042540793775905778355259648668164460], []⟩,
  ⟨146217586546163942484823415885994690382986343685813590467453071927, [.eps 2697238398092563171739679723437624108748371039754890443206640247146362812435964782958], []⟩,
  ⟨45252151208292920325921702490933282199278910582112384022013395274701438064229712754635598190, [.eps 11584550709322987603435955837678920243015401109020770309635429190323568144442806465186713531764, .cls 8 45252151208292920325921702490933282199278910582112384022013395274701438064229712754635598190], []⟩,
  ⟨11584550709322987603435955837678920243015401109020770309635429190323568144442806465186713531764, [.eps 146217586546163942484823415885994690382986343685813590467453071927], []⟩,
  ⟨146217586546163942484823415885994690382986343685813590467453071928, [.eps 45252151208292920325921702490933282199278910582112384022013395274701438064229712754669152622], []⟩,
  ⟨2697238398092563171739679723437624108748371039754890443206640247146362812435964782958, [.cls 0 2697238398092563171739679723437624108748371039754890443206640247146362812435964786225], []⟩,
  ⟨2697238398092563171739679723437624108748371039754890443206640247146362812435964786225, [.eps 2697238398092563171739679723437624108748371039754890443206640247146362812435964764977, .eps 690493029911696171965358009200031771839582986177251953460899903269468879983606984832372, .cls 0 2697238398092563171739679723437624108748371039754890443206640247146362812435964786225], []⟩,
  ⟨2697238398092563171739679723437624108748371039754890443206640247146362812435964764977, [], [bs "COPY_TO_VALUE"]⟩,
  ⟨690493029911696171965358009200031771839582986177251953460899903269468879983606984832372, [.eps 146217586546163942484823415885994690382986343685813590467453071928], []⟩,
  ⟨45252151208292920325921702490933282199278910582112384022013395274701438064229712754669152622, [.eps 11584550709322987603435955837678920243015401109020770309635429190323568144442806465195303466356, .cls 8 45252151208292920325921702490933282199278910582112384022013395274701438064229712754669152622], []⟩,
  ⟨11584550709322987603435955837678920243015401109020770309635429190323568144442806465195303466356, [.eps 10536087492549074889608123919678219174798324374042540793775905778355259648668164460], []⟩,
  ⟨146217586546163942484823415885994690382986343685813590467453071929, [.eps 146217586546163942484823415885994690382986343685813590467453072176], []⟩,
  ⟨45252151208292920325921702490933282199278910582112384022013395274701438064229712754685929838, [.eps 11584550709322987603435955837678920243015401109020770309635429190323568144442806465199598433652, .cls 8 45252151208292920325921702490933282199278910582112384022013395274701438064229712754685929838], []⟩,
  ⟨11584550709322987603435955837678920243015401109020770309635429190323568144442806465199598433652, [.eps 146217586546163942484823415885994690382986343685813590467453071929], []⟩,
  ⟨146217586546163942484823415885994690382986343685813590467453072176, [.token 0 10536087492549074889608123919678219174798324374042540793775905778355259648668164460], []⟩,
  ⟨690493029911696171965358009200031771839582986177251953460898673824560946259371819431269, [.eps 45252151208292920325921702490933282199278910582112384022013395274701438064229712754753038702, .eps 45252151208292920325921702490933282199278910582112384022013395274701438064229712754702707054], []⟩,
  ⟨146217586546163942484823415885994690382986343685813590467453072177, [.eps 690493029911696171965358009200031771839582986177251953460898381179751104639611349920110], []⟩,
  ⟨45252151208292920325921702490933282199278910582112384022013395274701438064229712754702707054, [.eps 11584550709322987603435955837678920243015401109020770309635429190323568144442806465203893400948, .cls 8 45252151208292920325921702490933282199278910582112384022013395274701438064229712754702707054], []⟩,
  ⟨11584550709322987603435955837678920243015401109020770309635429190323568144442806465203893400948, [.eps 146217586546163942484823415885994690382986343685813590467453072177], []⟩,
  ⟨146217586546163942484823415885994690382986343685813590467453072178, [.eps 45252151208292920325921702490933282199278910582112384022013395274701438064229712754736261486], []⟩,
  ⟨690493029911696171965358009200031771839582986177251953460898381179751104639611349920110, [.cls 11 176766215657394220023131650355208133590933244461376500085989985582016282787740505580074544], []⟩,
  ⟨176766215657394220023131650355208133590933244461376500085989985582016282787740505580074544, [.eps 3260761141110101380810070265255116602890224939012347596938412502092852653133780442347097453023523243144669550, .cls 1 176766215657394220023131650355208133590933244461376500085989985582016282787740505580074545, .cls 0 176766215657394220023131650355208133590933244461376500085989985582016282787740505580074545], []⟩,
  ⟨3260761141110101380810070265255116602890224939012347596938412502092852653133780442347097453023523243144669550, [.cls 6 3260761141110101380810070265255116602890224939012347596938412502092852653133780442347097453023523243144651570, .cls 4 3260761141110101380810070265255116602890224939012347596938412502092852653133780442347097453023523243144651569], []⟩,
  ⟨3260761141110101380810070265255116602890224939012347596938412502092852653133780442347097453023523243144651569, [.cls 5 834754852124185953487377987905309850339897584387160984816233600535770279202247793240856947974021950245035799924], []⟩,
  ⟨3260761141110101380810070265255116602890224939012347596938412502092852653133780442347097453023523243144651570, [.cls 7 834754852124185953487377987905309850339897584387160984816233600535770279202247793240856947974021950245035799924], []⟩,
  ⟨834754852124185953487377987905309850339897584387160984816233600535770279202247793240856947974021950245035799924, [.eps 176766215657394220023131650355208133590933244461376500085989985582016282787740505580074545], []⟩,
  ⟨176766215657394220023131650355208133590933244461376500085989985582016282787740505580074545, [.eps 690493029911696171965358009200031771839582986177251953460898381179751104639611349902129, .eps 3260761141110101380810070265255116602890224939012347596938412502092852653133780442347097453023523243161446766, .cls 1 176766215657394220023131650355208133590933244461376500085989985582016282787740505580074545, .cls 0 176766215657394220023131650355208133590933244461376500085989985582016282787740505580074545, .eps 176766215657394220023131650355208133590933244461376500085989985582016282787740505580074546], []⟩,
  ⟨690493029911696171965358009200031771839582986177251953460898381179751104639611349902129, [], [bs "COPY_TO_VALUE"]⟩,
  ⟨3260761141110101380810070265255116602890224939012347596938412502092852653133780442347097453023523243161446766, [.cls 6 3260761141110101380810070265255116602890224939012347596938412502092852653133780442347097453023523243161428786, .cls 4 3260761141110101380810070265255116602890224939012347596938412502092852653133780442347097453023523243161428785], []⟩,
  ⟨3260761141110101380810070265255116602890224939012347596938412502092852653133780442347097453023523243161428785, [.cls 5 834754852124185953487377987905309850339897584387160984816233600535770279202247793240856947974021950249330767220], []⟩,
  ⟨3260761141110101380810070265255116602890224939012347596938412502092852653133780442347097453023523243161428786, [.cls 7 834754852124185953487377987905309850339897584387160984816233600535770279202247793240856947974021950249330767220], []⟩,
  ⟨834754852124185953487377987905309850339897584387160984816233600535770279202247793240856947974021950249330767220, [.eps 176766215657394220023131650355208133590933244461376500085989985582016282787740505580074545], []⟩,
  ⟨176766215657394220023131650355208133590933244461376500085989985582016282787740505580074546, [.cls 12 176766215657394220023131650355208133590933244461376500085989985582016282787740505579943284], []⟩,
  ⟨176766215657394220023131650355208133590933244461376500085989985582016282787740505579943284, [.eps 146217586546163942484823415885994690382986343685813590467453072178], []⟩,
  ⟨45252151208292920325921702490933282199278910582112384022013395274701438064229712754736261486, [.eps 11584550709322987603435955837678920243015401109020770309635429190323568144442806465212483335540, .cls 8 45252151208292920325921702490933282199278910582112384022013395274701438064229712754736261486], []⟩,
  ⟨11584550709322987603435955837678920243015401109020770309635429190323568144442806465212483335540, [.eps 690493029911696171965358009200031771839582986177251953460897761090289503697214561482085], []⟩,
  ⟨146217586546163942484823415885994690382986343685813590467453072179, [.eps 2697238398092563171739679723437624108748371039754890443206640247146362812436082223470], []⟩,
  ⟨45252151208292920325921702490933282199278910582112384022013395274701438064229712754753038702, [.eps 11584550709322987603435955837678920243015401109020770309635429190323568144442806465216778302836, .cls 8 45252151208292920325921702490933282199278910582112384022013395274701438064229712754753038702], []⟩,
  ⟨11584550709322987603435955837678920243015401109020770309635429190323568144442806465216778302836, [.eps 146217586546163942484823415885994690382986343685813590467453072179], []⟩,
  ⟨146217586546163942484823415885994690382986343685813590467453072180, [.eps 45252151208292920325921702490933282199278910582112384022013395274701438064229712754786593134], []⟩,
  ⟨2697238398092563171739679723437624108748371039754890443206640247146362812436082223470, [.cls 0 2697238398092563171739679723437624108748371039754890443206640247146362812436082226737], []⟩,
  ⟨2697238398092563171739679723437624108748371039754890443206640247146362812436082226737, [.eps 2697238398092563171739679723437624108748371039754890443206640247146362812436082205489, .eps 690493029911696171965358009200031771839582986177251953460899903269468879983637049603444, .cls 0 2697238398092563171739679723437624108748371039754890443206640247146362812436082226737], []⟩,
  ⟨2697238398092563171739679723437624108748371039754890443206640247146362812436082205489, [], [bs "COPY_TO_VALUE"]⟩,
  ⟨690493029911696171965358009200031771839582986177251953460899903269468879983637049603444, [.eps 146217586546163942484823415885994690382986343685813590467453072180], []⟩,
  ⟨45252151208292920325921702490933282199278910582112384022013395274701438064229712754786593134, [.eps 11584550709322987603435955837678920243015401109020770309635429190323568144442806465225368237428, .cls 8 45252151208292920325921702490933282199278910582112384022013395274701438064229712754786593134], []⟩,
  ⟨11584550709322987603435955837678920243015401109020770309635429190323568144442806465225368237428, [.eps 690493029911696171965358009200031771839582986177251953460897761090289503697214561482085], []⟩,
  ⟨2697238398092563171739679723437624108748371039754890443206635444627191188573222298996, [.eps 45252151208292920325921702490933282199278910582112384022013395274701438064229712758980897134, .eps 45252151208292920325921702490933282199278910582112384022013395274701438064229712758930565486], []⟩,
  ⟨146217586546163942484823415885994690382986343685813590467453072181, [.cls 28 146217586546163942484823415885994690382986343685813590467453072182], []⟩,
  ⟨45252151208292920325921702490933282199278910582112384022013395274701438064229712758930565486, [.eps 11584550709322987603435955837678920243015401109020770309635429190323568144442806466286225159540, .cls 8 45252151208292920325921702490933282199278910582112384022013395274701438064229712758930565486], []⟩,
  ⟨11584550709322987603435955837678920243015401109020770309635429190323568144442806466286225159540, [.eps 146217586546163942484823415885994690382986343685813590467453072181], []⟩,
  ⟨146217586546163942484823415885994690382986343685813590467453072182, [.cls 29 146217586546163942484823415885994690382986343685813590467453072183], []⟩,
  ⟨146217586546163942484823415885994690382986343685813590467453072183, [.eps 2697238398092563171739679723437624108748371039754890443206640247146362812440259750254], []⟩,
  ⟨146217586546163942484823415885994690382986343685813590467453072184, [.eps 45252151208292920325921702490933282199278910582112384022013395274701438064229712758964119918], []⟩,
  ⟨2697238398092563171739679723437624108748371039754890443206640247146362812440259750254, [.cls 0 2697238398092563171739679723437624108748371039754890443206640247146362812440259753521], []⟩,
  ⟨2697238398092563171739679723437624108748371039754890443206640247146362812440259753521, [.eps 2697238398092563171739679723437624108748371039754890443206640247146362812440259732273, .eps 690493029911696171965358009200031771839582986177251953460899903269468879984706496460148, .cls 0 2697238398092563171739679723437624108748371039754890443206640247146362812440259753521], []⟩,
  ⟨2697238398092563171739679723437624108748371039754890443206640247146362812440259732273, [], [bs "COPY_TO_VALUE"]⟩,
  ⟨690493029911696171965358009200031771839582986177251953460899903269468879984706496460148, [.eps 146217586546163942484823415885994690382986343685813590467453072184], []⟩,
  ⟨45252151208292920325921702490933282199278910582112384022013395274701438064229712758964119918, [.eps 11584550709322987603435955837678920243015401109020770309635429190323568144442806466294815094132, .cls 8 45252151208292920325921702490933282199278910582112384022013395274701438064229712758964119918], []⟩,
  ⟨11584550709322987603435955837678920243015401109020770309635429190323568144442806466294815094132, [.eps 2697238398092563171739679723437624108748371039754890443206631879258943366064795510132], []⟩,
  ⟨146217586546163942484823415885994690382986343685813590467453072185, [.eps 2697238398092563171739679723437624108748371039754890443206629404629382945492788210030], []⟩,
  ⟨45252151208292920325921702490933282199278910582112384022013395274701438064229712758980897134, [.eps 11584550709322987603435955837678920243015401109020770309635429190323568144442806466299110061428, .cls 8 45252151208292920325921702490933282199278910582112384022013395274701438064229712758980897134], []⟩,
  ⟨11584550709322987603435955837678920243015401109020770309635429190323568144442806466299110061428, [.eps 146217586546163942484823415885994690382986343685813590467453072185], []⟩,
  ⟨146217586546163942484823415885994690382986343685813590467453072432, [.cls 30 146217586546163942484823415885994690382986343685813590467453072433], []⟩,
  ⟨2697238398092563171739679723437624108748371039754890443206629404629382945492788210030, [.cls 3 11584550709322987603435955837678920243015401109020770309635418663275150751551675970311653650993, .cls 2 11584550709322987603435955837678920243015401109020770309635418663275150751551675970311653650993], []⟩,
  ⟨11584550709322987603435955837678920243015401109020770309635418663275150751551675970311653650993, [.eps 2697238398092563171739679723437624108748371039754890443206629404629382945492788192049, .cls 3 11584550709322987603435955837678920243015401109020770309635418663275150751551675970311653650993, .cls 2 11584550709322987603435955837678920243015401109020770309635418663275150751551675970311653650993, .eps 690493029911696171965358009200031771839582986177251953460897127585122034046153782162804], []⟩,
  ⟨2697238398092563171739679723437624108748371039754890443206629404629382945492788192049, [], [bs "COPY_TO_MINOR"]⟩,
  ⟨690493029911696171965358009200031771839582986177251953460897127585122034046153782162804, [.eps 146217586546163942484823415885994690382986343685813590467453072432], []⟩,
  ⟨146217586546163942484823415885994690382986343685813590467453072433, [.cls 31 146217586546163942484823415885994690382986343685813590467453072434], []⟩,
  ⟨146217586546163942484823415885994690382986343685813590467453072434, [.eps 2697238398092563171739679723437624108748371039754890443206640247146362812440326859118], []⟩,
  ⟨146217586546163942484823415885994690382986343685813590467453072435, [.eps 45252151208292920325921702490933282199278910582112384022013395274701438064229712759031228782], []⟩,
  ⟨2697238398092563171739679723437624108748371039754890443206640247146362812440326859118, [.cls 0 2697238398092563171739679723437624108748371039754890443206640247146362812440326862385], []⟩,
  ⟨2697238398092563171739679723437624108748371039754890443206640247146362812440326862385, [.eps 2697238398092563171739679723437624108748371039754890443206640247146362812440326841137, .eps 690493029911696171965358009200031771839582986177251953460899903269468879984723676329332, .cls 0 2697238398092563171739679723437624108748371039754890443206640247146362812440326862385], []⟩,
  ⟨2697238398092563171739679723437624108748371039754890443206640247146362812440326841137, [], [bs "COPY_TO_VALUE"]⟩,
  ⟨690493029911696171965358009200031771839582986177251953460899903269468879984723676329332, [.eps 146217586546163942484823415885994690382986343685813590467453072435], []⟩,
  ⟨45252151208292920325921702490933282199278910582112384022013395274701438064229712759031228782, [.eps 11584550709322987603435955837678920243015401109020770309635429190323568144442806466311994963316, .cls 8 45252151208292920325921702490933282199278910582112384022013395274701438064229712759031228782], []⟩,
  ⟨11584550709322987603435955837678920243015401109020770309635429190323568144442806466311994963316, [.eps 2697238398092563171739679723437624108748371039754890443206631879258943366064795510132], []⟩,
  ⟨12737348207461333518789336973652799230039941168016982800540679234644117287451908043754460397379669667509605, [.eps 45252151208292920325921702490933282199278910582112384022013395274701438064229712759048005998], []⟩,
  ⟨146217586546163942484823415885994690382986343685813590467453072436, [.eps 2697238398092563171739679723437624108748371039754890443206640247146362812440377190766], []⟩,
  ⟨45252151208292920325921702490933282199278910582112384022013395274701438064229712759048005998, [.eps 11584550709322987603435955837678920243015401109020770309635429190323568144442806466316289930612, .cls 8 45252151208292920325921702490933282199278910582112384022013395274701438064229712759048005998], []⟩,
  ⟨11584550709322987603435955837678920243015401109020770309635429190323568144442806466316289930612, [.eps 146217586546163942484823415885994690382986343685813590467453072436], []⟩,
  ⟨146217586546163942484823415885994690382986343685813590467453072437, [.eps 45252151208292920325921702490933282199278910582112384022013395274701438064229712759081560430], []⟩,
  ⟨2697238398092563171739679723437624108748371039754890443206640247146362812440377190766, [.cls 0 2697238398092563171739679723437624108748371039754890443206640247146362812440377194033], []⟩,
  ⟨2697238398092563171739679723437624108748371039754890443206640247146362812440377194033, [.eps 2697238398092563171739679723437624108748371039754890443206640247146362812440377172785, .eps 690493029911696171965358009200031771839582986177251953460899903269468879984736561231220, .cls 0 2697238398092563171739679723437624108748371039754890443206640247146362812440377194033], []⟩,
  ⟨2697238398092563171739679723437624108748371039754890443206640247146362812440377172785, [], [bs "COPY_TO_VALUE"]⟩,
  ⟨690493029911696171965358009200031771839582986177251953460899903269468879984736561231220, [.eps 146217586546163942484823415885994690382986343685813590467453072437], []⟩,
  ⟨45252151208292920325921702490933282199278910582112384022013395274701438064229712759081560430, [.eps 11584550709322987603435955837678920243015401109020770309635429190323568144442806466324879865204, .cls 8 45252151208292920325921702490933282199278910582112384022013395274701438064229712759081560430], []⟩,
  ⟨11584550709322987603435955837678920243015401109020770309635429190323568144442806466324879865204, [.eps 12737348207461333518789336973652799230039941168016982800540662397668604682763196430933788447369265314428261], []⟩,
  ⟨10536087492549074889608123919678219174798324374042540793775905778355259648668164460, [.eps 146217586546163942484823415885994690382986343685813590467458069876, .eps 146217586546163942484823415885994690382986343685813590467453072438], []⟩,
  ⟨146217586546163942484823415885994690382986343685813590467453072438, [], [bs "GOT_NAMEVALUE"]⟩,
  ⟨690493029911696171965358009200031771839582986177251953460897761090289503697214561482085, [.eps 146217586546163942484823415885994690382986343685813590467458069876, .eps 146217586546163942484823415885994690382986343685813590467453072439], []⟩,
  ⟨146217586546163942484823415885994690382986343685813590467453072439, [], [bs "GOT_NAMEVALUE_CONT"]⟩,
  ⟨2697238398092563171739679723437624108748371039754890443206631879258943366064795510132, [.eps 146217586546163942484823415885994690382986343685813590467458069876, .eps 146217586546163942484823415885994690382986343685813590467453072440], []⟩,
  ⟨146217586546163942484823415885994690382986343685813590467453072440, [], [bs "GOT_NAMEVALUE_CSET"]⟩,
  ⟨12737348207461333518789336973652799230039941168016982800540662397668604682763196430933788447369265314428261, [.eps 146217586546163942484823415885994690382986343685813590467458069876, .eps 146217586546163942484823415885994690382986343685813590467453072441], []⟩,
  ⟨146217586546163942484823415885994690382986343685813590467453072441, [], [bs "GOT_NAMEVALUE_CCONT"]⟩,
  ⟨146217586546163942484823415885994690382986343685813590467458069876, [.eps 1845525402912616395719345832052356468], []⟩,
  ⟨519469219803752730814577688128944609441666741201262, [.cls 2 8715247305999037175466025822519939564638482317170935948593], []⟩,
  ⟨8715247305999037175466025822519939564638482317170935948593, [.eps 132984120269760699088531888161009820017066685747918196, .cls 9 8715247305999037175466025822519939564638482317170935948594, .cls 2 8715247305999037175466025822519939564638482317170935948593, .eps 519469219803752730814577688128944609441666741183282, .eps 519469219803752730814577688128944609441666741183281], []⟩,
  ⟨519469219803752730814577688128944609441666741183281, [], [bs "COPY_TO_NAME"]⟩,
  ⟨519469219803752730814577688128944609441666741183282, [], [bs "GOT_NAME"]⟩,
  ⟨8715247305999037175466025822519939564638482317170935948594, [.eps 132984120269760699088531888161009820017066685747918196, .cls 2 8715247305999037175466025822519939564638482317170935948593, .cls 10 8715247305999037175466025822519939564638482317170935948594, .eps 519469219803752730814577688128944609441666741183284, .eps 519469219803752730814577688128944609441666741183283], []⟩,
  ⟨519469219803752730814577688128944609441666741183283, [], [bs "COPY_TO_NAME"]⟩,
  ⟨519469219803752730814577688128944609441666741183284, [], [bs "GOT_NAME_TRAILING_SPACE"]⟩,
  ⟨132984120269760699088531888161009820017066685747918196, [.eps 1845525402912616395719345832052356468], []⟩,
  ⟨146217586546163942484823415885989497851533392322883099968530180462, [.eps 2697238398092563171739679723437528323449563758753311573217014308978106773123850201454], []⟩,
  ⟨2697238398092563171739679723437528323449563758753311573217014308978106773123850201454, [.cls 2 45252151208292920325921702490931675188631196286376198979161663936816436603761829602701174065], []⟩,
  ⟨45252151208292920325921702490931675188631196286376198979161663936816436603761829602701174065, [.cls 2 45252151208292920325921702490931675188631196286376198979161663936816436603761829602701174065, .eps 690493029911696171965358009200007250803088322240847762743555663098395333919705651967348], []⟩,
  ⟨690493029911696171965358009200007250803088322240847762743555663098395333919705651967348, [.eps 37431702155817969276114794466813311449992548434658073591943726002031], []⟩,
  ⟨37431702155817969276114794466813311449992548434658073591943726002031, [.cls 32 37431702155817969276114794466813311449992548434658073591943725736306], []⟩,
  ⟨37431702155817969276114794466813311449992548434658073591943725736306, [.eps 2697238398092563171739679723437528323449563758753311573217014309125968956089695103342], []⟩,
  ⟨2697238398092563171739679723437528323449563758753311573217014309125968956089695103342, [.cls 3 11584550709322987603435955837678508848289586249312306938665385968460071010716500515843654775345, .cls 2 11584550709322987603435955837678508848289586249312306938665385968460071010716500515843654775345], []⟩,
  ⟨11584550709322987603435955837678508848289586249312306938665385968460071010716500515843654775345, [.eps 2697238398092563171739679723437528323449563758753311573217014309125968956089695085361, .cls 3 11584550709322987603435955837678508848289586249312306938665385968460071010716500515843654775345, .cls 2 11584550709322987603435955837678508848289586249312306938665385968460071010716500515843654775345, .eps 690493029911696171965358009200007250803088322240847762743555663136248052758961946850676], []⟩,
  ⟨2697238398092563171739679723437528323449563758753311573217014309125968956089695085361, [], [bs "COPY_TO_MINOR"]⟩,
  ⟨690493029911696171965358009200007250803088322240847762743555663136248052758961946850676, [.eps 37431702155817969276114794466813311449992548434658073591943726593396], []⟩,
  ⟨37431702155817969276114794466813311449992548434658073591943726593396, [.eps 146217586546163942484823415885989497851533392322883099968530162481, .eps 1845525402912616395719345832052356468], []⟩,
  ⟨146217586546163942484823415885989497851533392322883099968530162481, [], [bs "GOT_MAJORMINOR"]⟩,
  ⟨1845525402912616395719345832052356468, [.eps 74549], []⟩, ⟨74550, [.cls 33 74551], []⟩,
  ⟨29111538763117749496338833107310, [.eps 7452553923358143871062741275866484, .cls 8 29111538763117749496338833107310], []⟩,
  ⟨7452553923358143871062741275866484, [.eps 74550], []⟩, ⟨74551, [.eps 29111538763117749496338849884526], []⟩, ⟨74552, [.token 0 6164935730], []⟩,
  ⟨29111538763117749496338849884526, [.eps 7452553923358143871062745570833780, .cls 8 29111538763117749496338849884526], []⟩,
  ⟨7452553923358143871062745570833780, [.eps 74552], []⟩, ⟨74553, [.eps 7209083605127407795778694723561838], []⟩,
  ⟨29111538763117749496338866661742, [.eps 7452553923358143871062749865801076, .cls 8 29111538763117749496338866661742], []⟩,
  ⟨7452553923358143871062749865801076, [.eps 74553], []⟩, ⟨19083568, [.eps 7452553923358143871062719830321518], []⟩,
  ⟨7209083605127407795778694723561838, [.eps 571162447445952900331341473621578742448203896637937578884884846, .eps 519469219803752730814577692964647887900183440025966, .eps 146217586546163942484823417247118965535287246176381529695603026286], []⟩,
  ⟨571162447445952900331341473621578742448203896637937578884884846, [.eps 45252151208292920325921702912182448873507657373784494756695124550281819666426157767651649902, .eps 45252151208292920325921702912182448873507657373784494756695124550281819666426157767601318254, .eps 176766215657394220023131652000712690912139286616345682643340330274538358071977178896951662, .eps 176766215657394220023131652000712690912139286616345682643340330274538358071977178829842798, .eps 176766215657394220023131652000712690912139286616345682643340330274538358071977178779511150], []⟩,
  ⟨571162447445952900331341473621578742448203896637937578884866865, [.eps 41156591767769823787531734444366928868028169175690431763264407961525008162777454], []⟩,
  ⟨176766215657394220023131652000712690912139286616345682643340330274538358071977178779511150, [.eps 45252151208292920325921702912182448873507657373784494756695124550281819666426157767555249524, .cls 8 176766215657394220023131652000712690912139286616345682643340330274538358071977178779511150], []⟩,
  ⟨45252151208292920325921702912182448873507657373784494756695124550281819666426157767555249524, [.eps 571162447445952900331341473621578742448203896637937578884866865], []⟩,
  ⟨571162447445952900331341473621578742448203896637937578884866866, [.eps 176766215657394220023131652000712690912139286616345682643340330274538358071977178813065582], []⟩,
  ⟨41156591767769823787531734444366928868028169175690431763264407961525008162777454, [.cls 2 690493029911696171965358015627783948875544088345100322825547837482624751348701769590065], []⟩,
  ⟨690493029911696171965358015627783948875544088345100322825547837482624751348701769590065, [.eps 41156591767769823787531734444366928868028169175690431763264407961525008162759473, .eps 41156591767769823787531734444366928868028169175690431763264407961525008162759474, .cls 2 690493029911696171965358015627783948875544088345100322825547837482624751348701769590065, .cls 9 690493029911696171965358015627783948875544088345100322825547837482624751348701769590066, .eps 10536087492549074889608124017757933790215211308976750531395688438150402089671423348], []⟩,
  ⟨41156591767769823787531734444366928868028169175690431763264407961525008162759473, [], [bs "COPY_TO_NAME"]⟩,
  ⟨41156591767769823787531734444366928868028169175690431763264407961525008162759474, [], [bs "GOT_NAME"]⟩,
  ⟨690493029911696171965358015627783948875544088345100322825547837482624751348701769590066, [.eps 41156591767769823787531734444366928868028169175690431763264407961525008162759475, .eps 41156591767769823787531734444366928868028169175690431763264407961525008162759476, .cls 10 690493029911696171965358015627783948875544088345100322825547837482624751348701769590066, .cls 2 690493029911696171965358015627783948875544088345100322825547837482624751348701769590065, .eps 10536087492549074889608124017757933790215211308976750531395688438150402089671423348], []⟩,
  ⟨41156591767769823787531734444366928868028169175690431763264407961525008162759475, [], [bs "COPY_TO_NAME"]⟩,
  ⟨41156591767769823787531734444366928868028169175690431763264407961525008162759476, [], [bs "GOT_NAME_TRAILING_SPACE"]⟩,
  ⟨10536087492549074889608124017757933790215211308976750531395688438150402089671423348, [.eps 571162447445952900331341473621578742448203896637937578884866866], []⟩,
  ⟨571162447445952900331341473621578742448203896637937578884866867, [.cls 15 10536087492549074889608124017757933790215211308976750531395707457174281525092245868], []⟩,
  ⟨176766215657394220023131652000712690912139286616345682643340330274538358071977178813065582, [.eps 45252151208292920325921702912182448873507657373784494756695124550281819666426157776145184116, .cls 8 176766215657394220023131652000712690912139286616345682643340330274538358071977178813065582], []⟩,
  ⟨45252151208292920325921702912182448873507657373784494756695124550281819666426157776145184116, [.eps 571162447445952900331341473621578742448203896637937578884866867], []⟩,
  ⟨571162447445952900331341473621578742448203896637937578884866868, [.eps 41156591767769823787531734444366928868028169175690431763264407961525008213109102], []⟩,
  ⟨176766215657394220023131652000712690912139286616345682643340330274538358071977178829842798, [.eps 45252151208292920325921702912182448873507657373784494756695124550281819666426157780440151412, .cls 8 176766215657394220023131652000712690912139286616345682643340330274538358071977178829842798], []⟩,
  ⟨45252151208292920325921702912182448873507657373784494756695124550281819666426157780440151412, [.eps 571162447445952900331341473621578742448203896637937578884866868], []⟩,
  ⟨571162447445952900331341473621578742448203896637937578884866869, [.cls 16 571162447445952900331341473621578742448203896637937578884866870], []⟩,
  ⟨41156591767769823787531734444366928868028169175690431763264407961525008213109102, [.cls 2 690493029911696171965358015627783948875544088345100322825547837482624752193126699722033], []⟩,
  ⟨690493029911696171965358015627783948875544088345100322825547837482624752193126699722033, [.eps 41156591767769823787531734444366928868028169175690431763264407961525008213091121, .eps 41156591767769823787531734444366928868028169175690431763264407961525008213091122, .cls 2 690493029911696171965358015627783948875544088345100322825547837482624752193126699722033, .cls 9 690493029911696171965358015627783948875544088345100322825547837482624752193126699722034, .eps 10536087492549074889608124017757933790215211308976750531395688438150402102556325236], []⟩,
  ⟨41156591767769823787531734444366928868028169175690431763264407961525008213091121, [], [bs "COPY_TO_NAME"]⟩,
  ⟨41156591767769823787531734444366928868028169175690431763264407961525008213091122, [], [bs "GOT_NAME"]⟩,
  ⟨690493029911696171965358015627783948875544088345100322825547837482624752193126699722034, [.eps 41156591767769823787531734444366928868028169175690431763264407961525008213091123, .eps 41156591767769823787531734444366928868028169175690431763264407961525008213091124, .cls 10 690493029911696171965358015627783948875544088345100322825547837482624752193126699722034, .cls 2 690493029911696171965358015627783948875544088345100322825547837482624752193126699722033, .eps 10536087492549074889608124017757933790215211308976750531395688438150402102556325236], []⟩,
  ⟨41156591767769823787531734444366928868028169175690431763264407961525008213091123, [], [bs "COPY_TO_NAME"]⟩,
  ⟨41156591767769823787531734444366928868028169175690431763264407961525008213091124, [], [bs "GOT_NAME_TRAILING_SPACE"]⟩,
  ⟨10536087492549074889608124017757933790215211308976750531395688438150402102556325236, [.eps 571162447445952900331341473621578742448203896637937578884866869], []⟩,
  ⟨571162447445952900331341473621578742448203896637937578884866870, [.eps 2697238398092563171739679748546031050295094095098048136037284188576869288448357198190], []⟩,
  ⟨571162447445952900331341473621578742448203896637937578884866871, [.eps 176766215657394220023131652000712690912139286616345682643340330274538358071977178880174446], []⟩,
  ⟨2697238398092563171739679748546031050295094095098048136037284188576869288448357198190, [.cls 13 690493029911696171965358015627783948875544088345100322825544752275678537842779443131764, .cls 14 2697238398092563171739679748546031050295094095098048136037284188576869288448357198190], []⟩,
  ⟨690493029911696171965358015627783948875544088345100322825544752275678537842779443131764, [.eps 571162447445952900331341473621578742448203896637937578884866871], []⟩,
  ⟨571162447445952900331341473621578742448203896637937578884866872, [.cls 17 690493029911696171965358015627783948875544088345100322825549083913372921390543160636773], []⟩,
  ⟨176766215657394220023131652000712690912139286616345682643340330274538358071977178880174446, [.eps 45252151208292920325921702912182448873507657373784494756695124550281819666426157793325053300, .cls 8 176766215657394220023131652000712690912139286616345682643340330274538358071977178880174446], []⟩,
  ⟨45252151208292920325921702912182448873507657373784494756695124550281819666426157793325053300, [.eps 571162447445952900331341473621578742448203896637937578884866872], []⟩,
  ⟨571162447445952900331341473621578742448203896637937578884866873, [.eps 41156591767769823787531734444366928868028169175690431763264407961525008280217966], []⟩,
  ⟨176766215657394220023131652000712690912139286616345682643340330274538358071977178896951662, [.eps 45252151208292920325921702912182448873507657373784494756695124550281819666426157797620020596, .cls 8 176766215657394220023131652000712690912139286616345682643340330274538358071977178896951662], []⟩,
  ⟨45252151208292920325921702912182448873507657373784494756695124550281819666426157797620020596, [.eps 571162447445952900331341473621578742448203896637937578884866873], []⟩,
  ⟨146217586546163942484823417247124158066740197539312020194525917488, [.cls 18 146217586546163942484823417247124158066740197539312020194525917489], []⟩,
  ⟨41156591767769823787531734444366928868028169175690431763264407961525008280217966, [.cls 2 690493029911696171965358015627783948875544088345100322825547837482624753319026606564657], []⟩,
  ⟨690493029911696171965358015627783948875544088345100322825547837482624753319026606564657, [.eps 41156591767769823787531734444366928868028169175690431763264407961525008280199985, .eps 41156591767769823787531734444366928868028169175690431763264407961525008280199986, .cls 2 690493029911696171965358015627783948875544088345100322825547837482624753319026606564657, .cls 9 690493029911696171965358015627783948875544088345100322825547837482624753319026606564658, .eps 10536087492549074889608124017757933790215211308976750531395688438150402119736194420], []⟩,
  ⟨41156591767769823787531734444366928868028169175690431763264407961525008280199985, [], [bs "COPY_TO_NAME"]⟩,
  ⟨41156591767769823787531734444366928868028169175690431763264407961525008280199986, [], [bs "GOT_NAME"]⟩,
  ⟨690493029911696171965358015627783948875544088345100322825547837482624753319026606564658, [.eps 41156591767769823787531734444366928868028169175690431763264407961525008280199987, .eps 41156591767769823787531734444366928868028169175690431763264407961525008280199988, .cls 10 690493029911696171965358015627783948875544088345100322825547837482624753319026606564658, .cls 2 690493029911696171965358015627783948875544088345100322825547837482624753319026606564657, .eps 10536087492549074889608124017757933790215211308976750531395688438150402119736194420], []⟩,
  ⟨41156591767769823787531734444366928868028169175690431763264407961525008280199987, [], [bs "COPY_TO_NAME"]⟩,
  ⟨41156591767769823787531734444366928868028169175690431763264407961525008280199988, [], [bs "GOT_NAME_TRAILING_SPACE"]⟩,
  ⟨10536087492549074889608124017757933790215211308976750531395688438150402119736194420, [.eps 146217586546163942484823417247124158066740197539312020194525917488], []⟩,
  ⟨146217586546163942484823417247124158066740197539312020194525917489, [.eps 45252151208292920325921702912182448873507657373784494756695124550281819666426157767584541038], []⟩,
  ⟨146217586546163942484823417247124158066740197539312020194525917490, [.cls 19 2697238398092563171739679748546031050295094095098048136037301109036612966429360350580], []⟩,
  ⟨45252151208292920325921702912182448873507657373784494756695124550281819666426157767584541038, [.eps 11584550709322987603435955945518706911617960287688830657713951884872145834605096388501642900852, .cls 8 45252151208292920325921702912182448873507657373784494756695124550281819666426157767584541038], []⟩,
  ⟨11584550709322987603435955945518706911617960287688830657713951884872145834605096388501642900852, [.eps 146217586546163942484823417247124158066740197539312020194525917490], []⟩,
  ⟨146217586546163942484823417247124158066740197539312020194525917491, [.eps 10536087492549074889608124017757933790215211308976750531395688438150402085439301998], []⟩,
  ⟨45252151208292920325921702912182448873507657373784494756695124550281819666426157767601318254, [.eps 11584550709322987603435955945518706911617960287688830657713951884872145834605096388505937868148, .cls 8 45252151208292920325921702912182448873507657373784494756695124550281819666426157767601318254], []⟩,
  ⟨11584550709322987603435955945518706911617960287688830657713951884872145834605096388505937868148, [.eps 146217586546163942484823417247124158066740197539312020194525917491], []⟩,
  ⟨146217586546163942484823417247124158066740197539312020194525917492, [.cls 20 146217586546163942484823417247124158066740197539312020194525917493], []⟩,
  ⟨10536087492549074889608124017757933790215211308976750531395688438150402085439301998, [.cls 2 176766215657394220023131652000712690912139286616345682643340246395551936274265645773579569], []⟩,
  ⟨176766215657394220023131652000712690912139286616345682643340246395551936274265645773579569, [.eps 10536087492549074889608124017757933790215211308976750531395688438150402085439284017, .eps 10536087492549074889608124017757933790215211308976750531395688438150402085439284018, .cls 2 176766215657394220023131652000712690912139286616345682643340246395551936274265645773579569, .cls 9 176766215657394220023131652000712690912139286616345682643340246395551936274265645773579570, .eps 2697238398092563171739679748546031050295094095098048136037296240166502933872461706612], []⟩,
  ⟨10536087492549074889608124017757933790215211308976750531395688438150402085439284017, [], [bs "COPY_TO_NAME"]⟩,
  ⟨10536087492549074889608124017757933790215211308976750531395688438150402085439284018, [], [bs "GOT_NAME"]⟩,
  ⟨176766215657394220023131652000712690912139286616345682643340246395551936274265645773579570, [.eps 10536087492549074889608124017757933790215211308976750531395688438150402085439284019, .eps 10536087492549074889608124017757933790215211308976750531395688438150402085439284020, .cls 10 176766215657394220023131652000712690912139286616345682643340246395551936274265645773579570, .cls 2 176766215657394220023131652000712690912139286616345682643340246395551936274265645773579569, .eps 2697238398092563171739679748546031050295094095098048136037296240166502933872461706612], []⟩,
  ⟨10536087492549074889608124017757933790215211308976750531395688438150402085439284019, [], [bs "COPY_TO_NAME"]⟩,
  ⟨10536087492549074889608124017757933790215211308976750531395688438150402085439284020, [], [bs "GOT_NAME_TRAILING_SPACE"]⟩,
  ⟨2697238398092563171739679748546031050295094095098048136037296240166502933872461706612, [.eps 146217586546163942484823417247124158066740197539312020194525917492], []⟩,
  ⟨146217586546163942484823417247124158066740197539312020194525917493, [.cls 21 146217586546163942484823417247124158066740197539312020194525917494], []⟩,
  ⟨146217586546163942484823417247124158066740197539312020194525917494, [.cls 22 146217586546163942484823417247124158066740197539312020194525917495], []⟩,
  ⟨146217586546163942484823417247124158066740197539312020194525917495, [.eps 45252151208292920325921702912182448873507657373784494756695124550281819666426157767634872686], []⟩,
  ⟨146217586546163942484823417247124158066740197539312020194525917496, [.cls 23 2697238398092563171739679748546031050295094095098048136037301109036612966429360350580], []⟩,
  ⟨45252151208292920325921702912182448873507657373784494756695124550281819666426157767634872686, [.eps 11584550709322987603435955945518706911617960287688830657713951884872145834605096388514527802740, .cls 8 45252151208292920325921702912182448873507657373784494756695124550281819666426157767634872686], []⟩,
  ⟨11584550709322987603435955945518706911617960287688830657713951884872145834605096388514527802740, [.eps 146217586546163942484823417247124158066740197539312020194525917496], []⟩,
  ⟨146217586546163942484823417247124158066740197539312020194525917497, [.eps 10536087492549074889608124017757933790215211308976750531395688438150402085489633646], []⟩,
  ⟨45252151208292920325921702912182448873507657373784494756695124550281819666426157767651649902, [.eps 11584550709322987603435955945518706911617960287688830657713951884872145834605096388518822770036, .cls 8 45252151208292920325921702912182448873507657373784494756695124550281819666426157767651649902], []⟩,
  ⟨11584550709322987603435955945518706911617960287688830657713951884872145834605096388518822770036, [.eps 146217586546163942484823417247124158066740197539312020194525917497], []⟩,
  ⟨146217586546163942484823417247124158066740197539312020194525917744, [.cls 24 146217586546163942484823417247124158066740197539312020194525917745], []⟩,
  ⟨10536087492549074889608124017757933790215211308976750531395688438150402085489633646, [.cls 2 176766215657394220023131652000712690912139286616345682643340246395551936275110070703711537], []⟩,
  ⟨176766215657394220023131652000712690912139286616345682643340246395551936275110070703711537, [.eps 10536087492549074889608124017757933790215211308976750531395688438150402085489615665, .eps 10536087492549074889608124017757933790215211308976750531395688438150402085489615666, .cls 2 176766215657394220023131652000712690912139286616345682643340246395551936275110070703711537, .cls 9 176766215657394220023131652000712690912139286616345682643340246395551936275110070703711538, .eps 2697238398092563171739679748546031050295094095098048136037296240166502933885346608500], []⟩,
  ⟨10536087492549074889608124017757933790215211308976750531395688438150402085489615665, [], [bs "COPY_TO_NAME"]⟩,
  ⟨10536087492549074889608124017757933790215211308976750531395688438150402085489615666, [], [bs "GOT_NAME"]⟩,
  ⟨176766215657394220023131652000712690912139286616345682643340246395551936275110070703711538, [.eps 10536087492549074889608124017757933790215211308976750531395688438150402085489615667, .eps 10536087492549074889608124017757933790215211308976750531395688438150402085489615668, .cls 10 176766215657394220023131652000712690912139286616345682643340246395551936275110070703711538, .cls 2 176766215657394220023131652000712690912139286616345682643340246395551936275110070703711537, .eps 2697238398092563171739679748546031050295094095098048136037296240166502933885346608500], []⟩,
  ⟨10536087492549074889608124017757933790215211308976750531395688438150402085489615667, [], [bs "COPY_TO_NAME"]⟩,
  ⟨10536087492549074889608124017757933790215211308976750531395688438150402085489615668, [], [bs "GOT_NAME_TRAILING_SPACE"]⟩,
  ⟨2697238398092563171739679748546031050295094095098048136037296240166502933885346608500, [.eps 146217586546163942484823417247124158066740197539312020194525917744], []⟩,
  ⟨146217586546163942484823417247124158066740197539312020194525917745, [.cls 25 146217586546163942484823417247124158066740197539312020194525917746], []⟩,
  ⟨146217586546163942484823417247124158066740197539312020194525917746, [.cls 26 146217586546163942484823417247124158066740197539312020194525917747], []⟩,
  ⟨146217586546163942484823417247124158066740197539312020194525917747, [.eps 45252151208292920325921702912182448873507657373784494756695124550281819666426157767685204334], []⟩,
  ⟨146217586546163942484823417247124158066740197539312020194525917748, [.cls 27 12737348207461333518789337092223898609051725281753671449437096876392581585067845620159026421482714418804069], []⟩,
  ⟨45252151208292920325921702912182448873507657373784494756695124550281819666426157767685204334, [.eps 11584550709322987603435955945518706911617960287688830657713951884872145834605096388527412704628, .cls 8 45252151208292920325921702912182448873507657373784494756695124550281819666426157767685204334], []⟩,
  ⟨11584550709322987603435955945518706911617960287688830657713951884872145834605096388527412704628, [.eps 146217586546163942484823417247124158066740197539312020194525917748], []⟩,
  ⟨10536087492549074889608124017757933790215211308976750531395707457174281525092245868, [.eps 45252151208292920325921702912182448873507657373784494756695124550281819666426157771929839982, .eps 45252151208292920325921702912182448873507657373784494756695124550281819666426157771879508334, .eps 45252151208292920325921702912182448873507657373784494756695124550281819666426157767701981550], []⟩,
  ⟨146217586546163942484823417247124158066740197539312020194525917749, [.eps 690493029911696171965358015627783948875544088345100322825548791268563079770778446489966], []⟩,
  ⟨45252151208292920325921702912182448873507657373784494756695124550281819666426157767701981550, [.eps 11584550709322987603435955945518706911617960287688830657713951884872145834605096388531707671924, .cls 8 45252151208292920325921702912182448873507657373784494756695124550281819666426157767701981550], []⟩,
  ⟨11584550709322987603435955945518706911617960287688830657713951884872145834605096388531707671924, [.eps 146217586546163942484823417247124158066740197539312020194525917749], []⟩,
  ⟨146217586546163942484823417247124158066740197539312020194525917750, [.eps 45252151208292920325921702912182448873507657373784494756695124550281819666426157767735535982], []⟩,
  ⟨690493029911696171965358015627783948875544088345100322825548791268563079770778446489966, [.cls 11 176766215657394220023131652000712690912139286616345682643340490564752148421319282301957680], []⟩,
  ⟨176766215657394220023131652000712690912139286616345682643340490564752148421319282301957680, [.eps 3260761141110101380810070295609318043917241672128939891055895418380459513323440417181550246316491532856617326, .cls 1 176766215657394220023131652000712690912139286616345682643340490564752148421319282301957681, .cls 0 176766215657394220023131652000712690912139286616345682643340490564752148421319282301957681], []⟩,
  ⟨3260761141110101380810070295609318043917241672128939891055895418380459513323440417181550246316491532856617326, [.cls 6 3260761141110101380810070295609318043917241672128939891055895418380459513323440417181550246316491532856599346, .cls 4 3260761141110101380810070295609318043917241672128939891055895418380459513323440417181550246316491532856599345], []⟩,
  ⟨3260761141110101380810070295609318043917241672128939891055895418380459513323440417181550246316491532856599345, [.cls 5 834754852124185953487377995675985419242813868065008612110309227105397635410800746798476863057021832411294430580], []⟩,
  ⟨3260761141110101380810070295609318043917241672128939891055895418380459513323440417181550246316491532856599346, [.cls 7 834754852124185953487377995675985419242813868065008612110309227105397635410800746798476863057021832411294430580], []⟩,
  ⟨834754852124185953487377995675985419242813868065008612110309227105397635410800746798476863057021832411294430580, [.eps 176766215657394220023131652000712690912139286616345682643340490564752148421319282301957681], []⟩,
  ⟨176766215657394220023131652000712690912139286616345682643340490564752148421319282301957681, [.eps 690493029911696171965358015627783948875544088345100322825548791268563079770778446471985, .eps 3260761141110101380810070295609318043917241672128939891055895418380459513323440417181550246316491532873394542, .cls 1 176766215657394220023131652000712690912139286616345682643340490564752148421319282301957681, .cls 0 176766215657394220023131652000712690912139286616345682643340490564752148421319282301957681, .eps 176766215657394220023131652000712690912139286616345682643340490564752148421319282301957682], []⟩,
  ⟨690493029911696171965358015627783948875544088345100322825548791268563079770778446471985, [], [bs "COPY_TO_VALUE"]⟩,
  ⟨3260761141110101380810070295609318043917241672128939891055895418380459513323440417181550246316491532873394542, [.cls 6 3260761141110101380810070295609318043917241672128939891055895418380459513323440417181550246316491532873376562, .cls 4 3260761141110101380810070295609318043917241672128939891055895418380459513323440417181550246316491532873376561], []⟩,
  ⟨3260761141110101380810070295609318043917241672128939891055895418380459513323440417181550246316491532873376561, [.cls 5 834754852124185953487377995675985419242813868065008612110309227105397635410800746798476863057021832415589397876], []⟩,
  ⟨3260761141110101380810070295609318043917241672128939891055895418380459513323440417181550246316491532873376562, [.cls 7 834754852124185953487377995675985419242813868065008612110309227105397635410800746798476863057021832415589397876], []⟩,
  ⟨834754852124185953487377995675985419242813868065008612110309227105397635410800746798476863057021832415589397876, [.eps 176766215657394220023131652000712690912139286616345682643340490564752148421319282301957681], []⟩,
  ⟨176766215657394220023131652000712690912139286616345682643340490564752148421319282301957682, [.cls 12 176766215657394220023131652000712690912139286616345682643340490564752148421319282301826420], []⟩,
  ⟨176766215657394220023131652000712690912139286616345682643340490564752148421319282301826420, [.eps 146217586546163942484823417247124158066740197539312020194525917750], []⟩,
  ⟨45252151208292920325921702912182448873507657373784494756695124550281819666426157767735535982, [.eps 11584550709322987603435955945518706911617960287688830657713951884872145834605096388540297606516, .cls 8 45252151208292920325921702912182448873507657373784494756695124550281819666426157767735535982], []⟩,
  ⟨11584550709322987603435955945518706911617960287688830657713951884872145834605096388540297606516, [.eps 10536087492549074889608124017757933790215211308976750531395693529954563468418703724], []⟩,
  ⟨146217586546163942484823417247124158066740197539312020194525917751, [.eps 2697238398092563171739679748546031050295094095098048136037305911555784590292102834542], []⟩,
  ⟨45252151208292920325921702912182448873507657373784494756695124550281819666426157771879508334, [.eps 11584550709322987603435955945518706911617960287688830657713951884872145834605096389601154528628, .cls 8 45252151208292920325921702912182448873507657373784494756695124550281819666426157771879508334], []⟩,
  ⟨11584550709322987603435955945518706911617960287688830657713951884872145834605096389601154528628, [.eps 146217586546163942484823417247124158066740197539312020194525917751], []⟩,
  ⟨146217586546163942484823417247124158066740197539312020194525917752, [.eps 45252151208292920325921702912182448873507657373784494756695124550281819666426157771913062766], []⟩,
  ⟨2697238398092563171739679748546031050295094095098048136037305911555784590292102834542, [.cls 0 2697238398092563171739679748546031050295094095098048136037305911555784590292102837809], []⟩,
  ⟨2697238398092563171739679748546031050295094095098048136037305911555784590292102837809, [.eps 2697238398092563171739679748546031050295094095098048136037305911555784590292102816561, .eps 690493029911696171965358015627783948875544088345100322825550313358280855114778326037876, .cls 0 2697238398092563171739679748546031050295094095098048136037305911555784590292102837809], []⟩,
  ⟨2697238398092563171739679748546031050295094095098048136037305911555784590292102816561, [], [bs "COPY_TO_VALUE"]⟩,
  ⟨690493029911696171965358015627783948875544088345100322825550313358280855114778326037876, [.eps 146217586546163942484823417247124158066740197539312020194525917752], []⟩,
  ⟨45252151208292920325921702912182448873507657373784494756695124550281819666426157771913062766, [.eps 11584550709322987603435955945518706911617960287688830657713951884872145834605096389609744463220, .cls 8 45252151208292920325921702912182448873507657373784494756695124550281819666426157771913062766], []⟩,
  ⟨11584550709322987603435955945518706911617960287688830657713951884872145834605096389609744463220, [.eps 10536087492549074889608124017757933790215211308976750531395693529954563468418703724], []⟩,
  ⟨146217586546163942484823417247124158066740197539312020194525917753, [.eps 146217586546163942484823417247124158066740197539312020194525918000], []⟩,
  ⟨45252151208292920325921702912182448873507657373784494756695124550281819666426157771929839982, [.eps 11584550709322987603435955945518706911617960287688830657713951884872145834605096389614039430516, .cls 8 45252151208292920325921702912182448873507657373784494756695124550281819666426157771929839982], []⟩,
  ⟨11584550709322987603435955945518706911617960287688830657713951884872145834605096389614039430516, [.eps 146217586546163942484823417247124158066740197539312020194525917753], []⟩,
  ⟨146217586546163942484823417247124158066740197539312020194525918000, [.token 0 10536087492549074889608124017757933790215211308976750531395693529954563468418703724], []⟩,
  ⟨690493029911696171965358015627783948875544088345100322825549083913372921390543160636773, [.eps 45252151208292920325921702912182448873507657373784494756695124550281819666426157771996948846, .eps 45252151208292920325921702912182448873507657373784494756695124550281819666426157771946617198], []⟩,
  ⟨146217586546163942484823417247124158066740197539312020194525918001, [.eps 690493029911696171965358015627783948875544088345100322825548791268563079770782691125614], []⟩,
  ⟨45252151208292920325921702912182448873507657373784494756695124550281819666426157771946617198, [.eps 11584550709322987603435955945518706911617960287688830657713951884872145834605096389618334397812, .cls 8 45252151208292920325921702912182448873507657373784494756695124550281819666426157771946617198], []⟩,
  ⟨11584550709322987603435955945518706911617960287688830657713951884872145834605096389618334397812, [.eps 146217586546163942484823417247124158066740197539312020194525918001], []⟩,
  ⟨146217586546163942484823417247124158066740197539312020194525918002, [.eps 45252151208292920325921702912182448873507657373784494756695124550281819666426157771980171630], []⟩,
  ⟨690493029911696171965358015627783948875544088345100322825548791268563079770782691125614, [.cls 11 176766215657394220023131652000712690912139286616345682643340490564752148421320368928683568], []⟩,
  ⟨176766215657394220023131652000712690912139286616345682643340490564752148421320368928683568, [.eps 3260761141110101380810070295609318043917241672128939891055895418380459513323460461906666355193902699476052334, .cls 1 176766215657394220023131652000712690912139286616345682643340490564752148421320368928683569, .cls 0 176766215657394220023131652000712690912139286616345682643340490564752148421320368928683569], []⟩,
  ⟨3260761141110101380810070295609318043917241672128939891055895418380459513323460461906666355193902699476052334, [.cls 6 3260761141110101380810070295609318043917241672128939891055895418380459513323460461906666355193902699476034354, .cls 4 3260761141110101380810070295609318043917241672128939891055895418380459513323460461906666355193902699476034353], []⟩,
  ⟨3260761141110101380810070295609318043917241672128939891055895418380459513323460461906666355193902699476034353, [.cls 5 834754852124185953487377995675985419242813868065008612110309227105397635410805878248106586929639091065869792628], []⟩,
  ⟨3260761141110101380810070295609318043917241672128939891055895418380459513323460461906666355193902699476034354, [.cls 7 834754852124185953487377995675985419242813868065008612110309227105397635410805878248106586929639091065869792628], []⟩,
  ⟨834754852124185953487377995675985419242813868065008612110309227105397635410805878248106586929639091065869792628, [.eps 176766215657394220023131652000712690912139286616345682643340490564752148421320368928683569], []⟩,
  ⟨176766215657394220023131652000712690912139286616345682643340490564752148421320368928683569, [.eps 690493029911696171965358015627783948875544088345100322825548791268563079770782691107633, .eps 3260761141110101380810070295609318043917241672128939891055895418380459513323460461906666355193902699492829550, .cls 1 176766215657394220023131652000712690912139286616345682643340490564752148421320368928683569, .cls 0 176766215657394220023131652000712690912139286616345682643340490564752148421320368928683569, .eps 176766215657394220023131652000712690912139286616345682643340490564752148421320368928683570], []⟩,
  ⟨690493029911696171965358015627783948875544088345100322825548791268563079770782691107633, [], [bs "COPY_TO_VALUE"]⟩,
  ⟨3260761141110101380810070295609318043917241672128939891055895418380459513323460461906666355193902699492829550, [.cls 6 3260761141110101380810070295609318043917241672128939891055895418380459513323460461906666355193902699492811570, .cls 4 3260761141110101380810070295609318043917241672128939891055895418380459513323460461906666355193902699492811569], []⟩,
  ⟨3260761141110101380810070295609318043917241672128939891055895418380459513323460461906666355193902699492811569, [.cls 5 834754852124185953487377995675985419242813868065008612110309227105397635410805878248106586929639091070164759924], []⟩,
  ⟨3260761141110101380810070295609318043917241672128939891055895418380459513323460461906666355193902699492811570, [.cls 7 834754852124185953487377995675985419242813868065008612110309227105397635410805878248106586929639091070164759924], []⟩,
  ⟨834754852124185953487377995675985419242813868065008612110309227105397635410805878248106586929639091070164759924, [.eps 176766215657394220023131652000712690912139286616345682643340490564752148421320368928683569], []⟩,
  ⟨176766215657394220023131652000712690912139286616345682643340490564752148421320368928683570, [.cls 12 176766215657394220023131652000712690912139286616345682643340490564752148421320368928552308], []⟩,
  ⟨176766215657394220023131652000712690912139286616345682643340490564752148421320368928552308, [.eps 146217586546163942484823417247124158066740197539312020194525918002], []⟩,
  ⟨45252151208292920325921702912182448873507657373784494756695124550281819666426157771980171630, [.eps 11584550709322987603435955945518706911617960287688830657713951884872145834605096389626924332404, .cls 8 45252151208292920325921702912182448873507657373784494756695124550281819666426157771980171630], []⟩,
  ⟨11584550709322987603435955945518706911617960287688830657713951884872145834605096389626924332404, [.eps 690493029911696171965358015627783948875544088345100322825548171179101478828385902687589], []⟩,
  ⟨146217586546163942484823417247124158066740197539312020194525918003, [.eps 2697238398092563171739679748546031050295094095098048136037305911555784590292220275054], []⟩,
  ⟨45252151208292920325921702912182448873507657373784494756695124550281819666426157771996948846, [.eps 11584550709322987603435955945518706911617960287688830657713951884872145834605096389631219299700, .cls 8 45252151208292920325921702912182448873507657373784494756695124550281819666426157771996948846], []⟩,
  ⟨11584550709322987603435955945518706911617960287688830657713951884872145834605096389631219299700, [.eps 146217586546163942484823417247124158066740197539312020194525918003], []⟩,
  ⟨146217586546163942484823417247124158066740197539312020194525918004, [.eps 45252151208292920325921702912182448873507657373784494756695124550281819666426157772030503278], []⟩,
  ⟨2697238398092563171739679748546031050295094095098048136037305911555784590292220275054, [.cls 0 2697238398092563171739679748546031050295094095098048136037305911555784590292220278321], []⟩,
  ⟨2697238398092563171739679748546031050295094095098048136037305911555784590292220278321, [.eps 2697238398092563171739679748546031050295094095098048136037305911555784590292220257073, .eps 690493029911696171965358015627783948875544088345100322825550313358280855114808390808948, .cls 0 2697238398092563171739679748546031050295094095098048136037305911555784590292220278321], []⟩,
  ⟨2697238398092563171739679748546031050295094095098048136037305911555784590292220257073, [], [bs "COPY_TO_VALUE"]⟩,
  ⟨690493029911696171965358015627783948875544088345100322825550313358280855114808390808948, [.eps 146217586546163942484823417247124158066740197539312020194525918004], []⟩,
  ⟨45252151208292920325921702912182448873507657373784494756695124550281819666426157772030503278, [.eps 11584550709322987603435955945518706911617960287688830657713951884872145834605096389639809234292, .cls 8 45252151208292920325921702912182448873507657373784494756695124550281819666426157772030503278], []⟩,
  ⟨11584550709322987603435955945518706911617960287688830657713951884872145834605096389639809234292, [.eps 690493029911696171965358015627783948875544088345100322825548171179101478828385902687589], []⟩,
  ⟨2697238398092563171739679748546031050295094095098048136037301109036612966429360350580, [.eps 45252151208292920325921702912182448873507657373784494756695124550281819666426157776224807278, .eps 45252151208292920325921702912182448873507657373784494756695124550281819666426157776174475630], []⟩,
  ⟨146217586546163942484823417247124158066740197539312020194525918005, [.cls 28 146217586546163942484823417247124158066740197539312020194525918006], []⟩,
  ⟨45252151208292920325921702912182448873507657373784494756695124550281819666426157776174475630, [.eps 11584550709322987603435955945518706911617960287688830657713951884872145834605096390700666156404, .cls 8 45252151208292920325921702912182448873507657373784494756695124550281819666426157776174475630], []⟩,
  ⟨11584550709322987603435955945518706911617960287688830657713951884872145834605096390700666156404, [.eps 146217586546163942484823417247124158066740197539312020194525918005], []⟩,
  ⟨146217586546163942484823417247124158066740197539312020194525918006, [.cls 29 146217586546163942484823417247124158066740197539312020194525918007], []⟩,
  ⟨146217586546163942484823417247124158066740197539312020194525918007, [.eps 2697238398092563171739679748546031050295094095098048136037305911555784590296397801838], []⟩,
  ⟨146217586546163942484823417247124158066740197539312020194525918008, [.eps 45252151208292920325921702912182448873507657373784494756695124550281819666426157776208030062], []⟩,
  ⟨2697238398092563171739679748546031050295094095098048136037305911555784590296397801838, [.cls 0 2697238398092563171739679748546031050295094095098048136037305911555784590296397805105], []⟩,
  ⟨2697238398092563171739679748546031050295094095098048136037305911555784590296397805105, [.eps 2697238398092563171739679748546031050295094095098048136037305911555784590296397783857, .eps 690493029911696171965358015627783948875544088345100322825550313358280855115877837665652, .cls 0 2697238398092563171739679748546031050295094095098048136037305911555784590296397805105], []⟩,
  ⟨2697238398092563171739679748546031050295094095098048136037305911555784590296397783857, [], [bs "COPY_TO_VALUE"]⟩,
  ⟨690493029911696171965358015627783948875544088345100322825550313358280855115877837665652, [.eps 146217586546163942484823417247124158066740197539312020194525918008], []⟩,
  ⟨45252151208292920325921702912182448873507657373784494756695124550281819666426157776208030062, [.eps 11584550709322987603435955945518706911617960287688830657713951884872145834605096390709256090996, .cls 8 45252151208292920325921702912182448873507657373784494756695124550281819666426157776208030062], []⟩,
  ⟨11584550709322987603435955945518706911617960287688830657713951884872145834605096390709256090996, [.eps 2697238398092563171739679748546031050295094095098048136037297543668365143920933561716], []⟩,
  ⟨146217586546163942484823417247124158066740197539312020194525918009, [.eps 2697238398092563171739679748546031050295094095098048136037295069038804723348926261614], []⟩,
  ⟨45252151208292920325921702912182448873507657373784494756695124550281819666426157776224807278, [.eps 11584550709322987603435955945518706911617960287688830657713951884872145834605096390713551058292, .cls 8 45252151208292920325921702912182448873507657373784494756695124550281819666426157776224807278], []⟩,
  ⟨11584550709322987603435955945518706911617960287688830657713951884872145834605096390713551058292, [.eps 146217586546163942484823417247124158066740197539312020194525918009], []⟩,
  ⟨146217586546163942484823417247124158066740197539312020194525918256, [.cls 30 146217586546163942484823417247124158066740197539312020194525918257], []⟩,
  ⟨2697238398092563171739679748546031050295094095098048136037295069038804723348926261614, [.cls 3 11584550709322987603435955945518706911617960287688830657713941357823728441713965894726094647857, .cls 2 11584550709322987603435955945518706911617960287688830657713941357823728441713965894726094647857], []⟩,
  ⟨11584550709322987603435955945518706911617960287688830657713941357823728441713965894726094647857, [.eps 2697238398092563171739679748546031050295094095098048136037295069038804723348926243633, .cls 3 11584550709322987603435955945518706911617960287688830657713941357823728441713965894726094647857, .cls 2 11584550709322987603435955945518706911617960287688830657713941357823728441713965894726094647857, .eps 690493029911696171965358015627783948875544088345100322825547537673934009177325123368308], []⟩,
  ⟨2697238398092563171739679748546031050295094095098048136037295069038804723348926243633, [], [bs "COPY_TO_MINOR"]⟩,
  ⟨690493029911696171965358015627783948875544088345100322825547537673934009177325123368308, [.eps 146217586546163942484823417247124158066740197539312020194525918256], []⟩,
  ⟨146217586546163942484823417247124158066740197539312020194525918257, [.cls 31 146217586546163942484823417247124158066740197539312020194525918258], []⟩,
  ⟨146217586546163942484823417247124158066740197539312020194525918258, [.eps 2697238398092563171739679748546031050295094095098048136037305911555784590296464910702], []⟩,
  ⟨146217586546163942484823417247124158066740197539312020194525918259, [.eps 45252151208292920325921702912182448873507657373784494756695124550281819666426157776275138926], []⟩,
  ⟨2697238398092563171739679748546031050295094095098048136037305911555784590296464910702, [.cls 0 2697238398092563171739679748546031050295094095098048136037305911555784590296464913969], []⟩,
  ⟨2697238398092563171739679748546031050295094095098048136037305911555784590296464913969, [.eps 2697238398092563171739679748546031050295094095098048136037305911555784590296464892721, .eps 690493029911696171965358015627783948875544088345100322825550313358280855115895017534836, .cls 0 2697238398092563171739679748546031050295094095098048136037305911555784590296464913969], []⟩,
  ⟨2697238398092563171739679748546031050295094095098048136037305911555784590296464892721, [], [bs "COPY_TO_VALUE"]⟩,
  ⟨690493029911696171965358015627783948875544088345100322825550313358280855115895017534836, [.eps 146217586546163942484823417247124158066740197539312020194525918259], []⟩,
  ⟨45252151208292920325921702912182448873507657373784494756695124550281819666426157776275138926, [.eps 11584550709322987603435955945518706911617960287688830657713951884872145834605096390726435960180, .cls 8 45252151208292920325921702912182448873507657373784494756695124550281819666426157776275138926], []⟩,
  ⟨11584550709322987603435955945518706911617960287688830657713951884872145834605096390726435960180, [.eps 2697238398092563171739679748546031050295094095098048136037297543668365143920933561716], []⟩,
  ⟨12737348207461333518789337092223898609051725281753671449437096876392581585067845620159026421482714418804069, [.eps 45252151208292920325921702912182448873507657373784494756695124550281819666426157776291916142], []⟩,
  ⟨146217586546163942484823417247124158066740197539312020194525918260, [.eps 2697238398092563171739679748546031050295094095098048136037305911555784590296515242350], []⟩,
  ⟨45252151208292920325921702912182448873507657373784494756695124550281819666426157776291916142, [.eps 11584550709322987603435955945518706911617960287688830657713951884872145834605096390730730927476, .cls 8 45252151208292920325921702912182448873507657373784494756695124550281819666426157776291916142], []⟩,
  ⟨11584550709322987603435955945518706911617960287688830657713951884872145834605096390730730927476, [.eps 146217586546163942484823417247124158066740197539312020194525918260], []⟩,
  ⟨146217586546163942484823417247124158066740197539312020194525918261, [.eps 45252151208292920325921702912182448873507657373784494756695124550281819666426157776325470574], []⟩,
  ⟨2697238398092563171739679748546031050295094095098048136037305911555784590296515242350, [.cls 0 2697238398092563171739679748546031050295094095098048136037305911555784590296515245617], []⟩,
  ⟨2697238398092563171739679748546031050295094095098048136037305911555784590296515245617, [.eps 2697238398092563171739679748546031050295094095098048136037305911555784590296515224369, .eps 690493029911696171965358015627783948875544088345100322825550313358280855115907902436724, .cls 0 2697238398092563171739679748546031050295094095098048136037305911555784590296515245617], []⟩,
  ⟨2697238398092563171739679748546031050295094095098048136037305911555784590296515224369, [], [bs "COPY_TO_VALUE"]⟩,
  ⟨690493029911696171965358015627783948875544088345100322825550313358280855115907902436724, [.eps 146217586546163942484823417247124158066740197539312020194525918261], []⟩,
  ⟨45252151208292920325921702912182448873507657373784494756695124550281819666426157776325470574, [.eps 11584550709322987603435955945518706911617960287688830657713951884872145834605096390739320862068, .cls 8 45252151208292920325921702912182448873507657373784494756695124550281819666426157776325470574], []⟩,
  ⟨11584550709322987603435955945518706911617960287688830657713951884872145834605096390739320862068, [.eps 12737348207461333518789337092223898609051725281753671449437080039417068980379134007338354471472310065722725], []⟩,
  ⟨10536087492549074889608124017757933790215211308976750531395693529954563468418703724, [.eps 146217586546163942484823417247124158066740197539312020194530915700, .eps 146217586546163942484823417247124158066740197539312020194525918262], []⟩,
  ⟨146217586546163942484823417247124158066740197539312020194525918262, [], [bs "GOT_NAMEVALUE"]⟩,
  ⟨690493029911696171965358015627783948875544088345100322825548171179101478828385902687589, [.eps 146217586546163942484823417247124158066740197539312020194530915700, .eps 146217586546163942484823417247124158066740197539312020194525918263], []⟩,
  ⟨146217586546163942484823417247124158066740197539312020194525918263, [], [bs "GOT_NAMEVALUE_CONT"]⟩,
  ⟨2697238398092563171739679748546031050295094095098048136037297543668365143920933561716, [.eps 146217586546163942484823417247124158066740197539312020194530915700, .eps 146217586546163942484823417247124158066740197539312020194525918264], []⟩,
  ⟨146217586546163942484823417247124158066740197539312020194525918264, [], [bs "GOT_NAMEVALUE_CSET"]⟩,
  ⟨12737348207461333518789337092223898609051725281753671449437080039417068980379134007338354471472310065722725, [.eps 146217586546163942484823417247124158066740197539312020194530915700, .eps 146217586546163942484823417247124158066740197539312020194525918265], []⟩,
  ⟨146217586546163942484823417247124158066740197539312020194525918265, [], [bs "GOT_NAMEVALUE_CCONT"]⟩,
  ⟨146217586546163942484823417247124158066740197539312020194530915700, [.eps 1845525402912616395719345849232225652], []⟩,
  ⟨519469219803752730814577692964647887900183440025966, [.cls 2 8715247305999037175466025903649577979245164012959941092657], []⟩,
  ⟨8715247305999037175466025903649577979245164012959941092657, [.eps 132984120269760699088531889398949859302446960647042420, .cls 9 8715247305999037175466025903649577979245164012959941092658, .cls 2 8715247305999037175466025903649577979245164012959941092657, .eps 519469219803752730814577692964647887900183440007986, .eps 519469219803752730814577692964647887900183440007985], []⟩,
  ⟨519469219803752730814577692964647887900183440007985, [], [bs "COPY_TO_NAME"]⟩,
  ⟨519469219803752730814577692964647887900183440007986, [], [bs "GOT_NAME"]⟩,
  ⟨8715247305999037175466025903649577979245164012959941092658, [.eps 132984120269760699088531889398949859302446960647042420, .cls 2 8715247305999037175466025903649577979245164012959941092657, .cls 10 8715247305999037175466025903649577979245164012959941092658, .eps 519469219803752730814577692964647887900183440007988, .eps 519469219803752730814577692964647887900183440007987], []⟩,
  ⟨519469219803752730814577692964647887900183440007987, [], [bs "COPY_TO_NAME"]⟩,
  ⟨519469219803752730814577692964647887900183440007988, [], [bs "GOT_NAME_TRAILING_SPACE"]⟩,
  ⟨132984120269760699088531889398949859302446960647042420, [.eps 1845525402912616395719345849232225652], []⟩,
  ⟨146217586546163942484823417247118965535287246176381529695603026286, [.eps 2697238398092563171739679748545935264996286814096469266047679973387528550979988253038], []⟩,
  ⟨2697238398092563171739679748545935264996286814096469266047679973387528550979988253038, [.cls 2 45252151208292920325921702912180841862859943078048309713843393212396818205958274619945084209], []⟩,
  ⟨45252151208292920325921702912180841862859943078048309713843393212396818205958274619945084209, [.cls 2 45252151208292920325921702912180841862859943078048309713843393212396818205958274619945084209, .eps 690493029911696171965358015627759427839049424408696132108206073187207309050876993172852], []⟩,
  ⟨690493029911696171965358015627759427839049424408696132108206073187207309050876993172852, [.eps 37431702155817969276114794815262455177033535021153671602074374532975], []⟩,
  ⟨37431702155817969276114794815262455177033535021153671602074374532975, [.cls 32 37431702155817969276114794815262455177033535021153671602074374267250], []⟩,
  ⟨37431702155817969276114794815262455177033535021153671602074374267250, [.eps 2697238398092563171739679748545935264996286814096469266047679973535390733945833154926], []⟩,
  ⟨2697238398092563171739679748545935264996286814096469266047679973535390733945833154926, [.cls 3 11584550709322987603435955945518295516892145427980367286743908663008648700878790440258095772209, .cls 2 11584550709322987603435955945518295516892145427980367286743908663008648700878790440258095772209], []⟩,
  ⟨11584550709322987603435955945518295516892145427980367286743908663008648700878790440258095772209, [.eps 2697238398092563171739679748545935264996286814096469266047679973535390733945833136945, .cls 3 11584550709322987603435955945518295516892145427980367286743908663008648700878790440258095772209, .cls 2 11584550709322987603435955945518295516892145427980367286743908663008648700878790440258095772209, .eps 690493029911696171965358015627759427839049424408696132108206073225060027890133288056180], []⟩,
  ⟨2697238398092563171739679748545935264996286814096469266047679973535390733945833136945, [], [bs "COPY_TO_MINOR"]⟩,
  ⟨690493029911696171965358015627759427839049424408696132108206073225060027890133288056180, [.eps 37431702155817969276114794815262455177033535021153671602074375124340], []⟩,
  ⟨37431702155817969276114794815262455177033535021153671602074375124340, [.eps 146217586546163942484823417247118965535287246176381529695603008305, .eps 1845525402912616395719345849232225652], []⟩,
  ⟨146217586546163942484823417247118965535287246176381529695603008305, [], [bs "GOT_MAJORMINOR"]⟩,
  ⟨1845525402912616395719345849232225652, [.eps 19083568], []⟩, ⟨19083569, [.cls 34 23686706], []⟩,
  ⟨7452553923358143871062719830321518, [.eps 1907853804379684830992056276562703732, .cls 8 7452553923358143871062719830321518], []⟩,
  ⟨1907853804379684830992056276562703732, [.eps 19083569], []⟩, ⟨23686706, [.eps 92526, .eps 19083570], []⟩, ⟨19083570, [], [bs "GOT_TERMINATOR"]⟩,
  ⟨6164935730, [.eps 24081780, .eps 19083571], []⟩, ⟨19083571, [], [bs "GOT_TERMINATOR"]⟩, ⟨24081780, [], []⟩], 14, 11⟩

/-- `main` before the state `out` is added at its end. -/
def nvpMain4 : Block := { nvpMainBlock with states := nvpMainBlock.states.dropLast }

end Mairix
