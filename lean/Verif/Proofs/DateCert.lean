import Verif.Model.NfaFiles
import Verif.Proofs.DatePositions
import Verif.Proofs.NfaScan
import Verif.Proofs.Bytes

/-!
# The certificate for datescan.nfa

The lists were computed by a program; that they are right is checked by the kernel.
-/

namespace Mairix
open Spec

/-- The states of datescan.nfa. -/
def dateStates0 : List IState := [
  ⟨[.eps 208, .cls 34 195, .eps 180, .eps 168, .eps 153, .cls 32 141, .eps 127, .eps 116, .eps 105, .eps 94, .eps 84, .eps 74, .eps 64, .eps 58, .eps 48, .cls 29 41, .eps 37, .eps 33, .cls 21 24, .cls 15 18, .eps 13, .eps 8, .eps 3, .cls 14 1], []⟩,
  ⟨[], [bs "DS_D"]⟩,
  ⟨[], [bs "DS_D"]⟩,
  ⟨[.cls 1 4, .cls 3 5], []⟩,
  ⟨[.cls 2 6], []⟩,
  ⟨[.cls 4 6], []⟩,
  ⟨[.eps 2], []⟩,
  ⟨[], [bs "DS_Y"]⟩,
  ⟨[.cls 5 9, .cls 7 10], []⟩,
  ⟨[.cls 6 11], []⟩,
  ⟨[.cls 8 11], []⟩,
  ⟨[.eps 7], []⟩,
  ⟨[], [bs "DS_Y"]⟩,
  ⟨[.cls 10 14], []⟩,
  ⟨[.cls 11 15], []⟩,
  ⟨[.cls 12 16], []⟩,
  ⟨[.cls 13 17], []⟩,
  ⟨[.eps 12], []⟩,
  ⟨[.cls 16 19], []⟩,
  ⟨[.cls 17 20], []⟩,
  ⟨[.cls 18 21], []⟩,
  ⟨[.cls 19 22], []⟩,
  ⟨[.cls 20 23], []⟩,
  ⟨[], [bs "DS_YYMMDD"]⟩,
  ⟨[.cls 22 25], []⟩,
  ⟨[.cls 23 26], []⟩,
  ⟨[.cls 24 27], []⟩,
  ⟨[.cls 25 28], []⟩,
  ⟨[.cls 26 29], []⟩,
  ⟨[.cls 27 30], []⟩,
  ⟨[.cls 28 31], []⟩,
  ⟨[], [bs "DS_YYMMDD"]⟩,
  ⟨[], [bs "DS_SCALED"]⟩,
  ⟨[.cls 9 33, .cls 9 34], []⟩,
  ⟨[.cls 0 35], []⟩,
  ⟨[.eps 32], []⟩,
  ⟨[], [bs "DS_M"]⟩,
  ⟨[.cls 0 38], []⟩,
  ⟨[.cls 0 39], []⟩,
  ⟨[.cls 0 40], []⟩]

/-- The states of datescan.nfa. -/
def dateStates1 : List IState := [
  ⟨[.eps 36], []⟩,
  ⟨[.eps 43], []⟩,
  ⟨[], [bs "DS_DM"]⟩,
  ⟨[.cls 0 44], []⟩,
  ⟨[.cls 0 45], []⟩,
  ⟨[.cls 0 46], []⟩,
  ⟨[.eps 42], []⟩,
  ⟨[.eps 53], []⟩,
  ⟨[.cls 1 49, .cls 3 50], []⟩,
  ⟨[.cls 2 51], []⟩,
  ⟨[.cls 4 51], []⟩,
  ⟨[.eps 47], []⟩,
  ⟨[], [bs "DS_DM"]⟩,
  ⟨[.cls 0 54], []⟩,
  ⟨[.cls 0 55], []⟩,
  ⟨[.cls 0 56], []⟩,
  ⟨[.eps 52], []⟩,
  ⟨[.cls 30 62], []⟩,
  ⟨[.cls 0 59], []⟩,
  ⟨[.cls 0 60], []⟩,
  ⟨[.cls 0 61], []⟩,
  ⟨[.eps 57], []⟩,
  ⟨[], [bs "DS_MD"]⟩,
  ⟨[.eps 69], []⟩,
  ⟨[.cls 0 65], []⟩,
  ⟨[.cls 0 66], []⟩,
  ⟨[.cls 0 67], []⟩,
  ⟨[.eps 63], []⟩,
  ⟨[], [bs "DS_MD"]⟩,
  ⟨[.cls 1 70, .cls 3 71], []⟩,
  ⟨[.cls 2 72], []⟩,
  ⟨[.cls 4 72], []⟩,
  ⟨[.eps 68], []⟩,
  ⟨[.eps 79], []⟩,
  ⟨[.cls 5 75, .cls 7 76], []⟩,
  ⟨[.cls 6 77], []⟩,
  ⟨[.cls 8 77], []⟩,
  ⟨[.eps 73], []⟩,
  ⟨[], [bs "DS_YM"]⟩,
  ⟨[.cls 0 80], []⟩]

/-- The states of datescan.nfa. -/
def dateStates2 : List IState := [
  ⟨[.cls 0 81], []⟩,
  ⟨[.cls 0 82], []⟩,
  ⟨[.eps 78], []⟩,
  ⟨[.eps 89], []⟩,
  ⟨[.cls 0 85], []⟩,
  ⟨[.cls 0 86], []⟩,
  ⟨[.cls 0 87], []⟩,
  ⟨[.eps 83], []⟩,
  ⟨[], [bs "DS_MY"]⟩,
  ⟨[.cls 5 90, .cls 7 91], []⟩,
  ⟨[.cls 6 92], []⟩,
  ⟨[.cls 8 92], []⟩,
  ⟨[.eps 88], []⟩,
  ⟨[.eps 100], []⟩,
  ⟨[.cls 10 95], []⟩,
  ⟨[.cls 11 96], []⟩,
  ⟨[.cls 12 97], []⟩,
  ⟨[.cls 13 98], []⟩,
  ⟨[.eps 93], []⟩,
  ⟨[], [bs "DS_YM"]⟩,
  ⟨[.cls 0 101], []⟩,
  ⟨[.cls 0 102], []⟩,
  ⟨[.cls 0 103], []⟩,
  ⟨[.eps 99], []⟩,
  ⟨[.eps 110], []⟩,
  ⟨[.cls 0 106], []⟩,
  ⟨[.cls 0 107], []⟩,
  ⟨[.cls 0 108], []⟩,
  ⟨[.eps 104], []⟩,
  ⟨[], [bs "DS_MY"]⟩,
  ⟨[.cls 10 111], []⟩,
  ⟨[.cls 11 112], []⟩,
  ⟨[.cls 12 113], []⟩,
  ⟨[.cls 13 114], []⟩,
  ⟨[.eps 109], []⟩,
  ⟨[.eps 121], []⟩,
  ⟨[.cls 5 117, .cls 7 118], []⟩,
  ⟨[.cls 6 119], []⟩,
  ⟨[.cls 8 119], []⟩,
  ⟨[.eps 115], []⟩]

/-- The states of datescan.nfa. -/
def dateStates3 : List IState := [
  ⟨[.cls 31 125], []⟩,
  ⟨[.cls 0 122], []⟩,
  ⟨[.cls 0 123], []⟩,
  ⟨[.cls 0 124], []⟩,
  ⟨[.eps 120], []⟩,
  ⟨[], [bs "DS_YMD"]⟩,
  ⟨[.eps 132], []⟩,
  ⟨[.cls 5 128, .cls 7 129], []⟩,
  ⟨[.cls 6 130], []⟩,
  ⟨[.cls 8 130], []⟩,
  ⟨[.eps 126], []⟩,
  ⟨[.eps 137], []⟩,
  ⟨[.cls 0 133], []⟩,
  ⟨[.cls 0 134], []⟩,
  ⟨[.cls 0 135], []⟩,
  ⟨[.eps 131], []⟩,
  ⟨[], [bs "DS_YMD"]⟩,
  ⟨[.cls 1 138, .cls 3 139], []⟩,
  ⟨[.cls 2 140], []⟩,
  ⟨[.cls 4 140], []⟩,
  ⟨[.eps 136], []⟩,
  ⟨[.eps 143], []⟩,
  ⟨[.eps 148], []⟩,
  ⟨[.cls 0 144], []⟩,
  ⟨[.cls 0 145], []⟩,
  ⟨[.cls 0 146], []⟩,
  ⟨[.eps 142], []⟩,
  ⟨[], [bs "DS_DMY"]⟩,
  ⟨[.cls 5 149, .cls 7 150], []⟩,
  ⟨[.cls 6 151], []⟩,
  ⟨[.cls 8 151], []⟩,
  ⟨[.eps 147], []⟩,
  ⟨[.eps 158], []⟩,
  ⟨[.cls 1 154, .cls 3 155], []⟩,
  ⟨[.cls 2 156], []⟩,
  ⟨[.cls 4 156], []⟩,
  ⟨[.eps 152], []⟩,
  ⟨[.eps 163], []⟩,
  ⟨[.cls 0 159], []⟩,
  ⟨[.cls 0 160], []⟩]

/-- The states of datescan.nfa. -/
def dateStates4 : List IState := [
  ⟨[.cls 0 161], []⟩,
  ⟨[.eps 157], []⟩,
  ⟨[], [bs "DS_DMY"]⟩,
  ⟨[.cls 5 164, .cls 7 165], []⟩,
  ⟨[.cls 6 166], []⟩,
  ⟨[.cls 8 166], []⟩,
  ⟨[.eps 162], []⟩,
  ⟨[.eps 174], []⟩,
  ⟨[.cls 10 169], []⟩,
  ⟨[.cls 11 170], []⟩,
  ⟨[.cls 12 171], []⟩,
  ⟨[.cls 13 172], []⟩,
  ⟨[.eps 167], []⟩,
  ⟨[.cls 33 178], []⟩,
  ⟨[.cls 0 175], []⟩,
  ⟨[.cls 0 176], []⟩,
  ⟨[.cls 0 177], []⟩,
  ⟨[.eps 173], []⟩,
  ⟨[], [bs "DS_YMD"]⟩,
  ⟨[.eps 186], []⟩,
  ⟨[.cls 10 181], []⟩,
  ⟨[.cls 11 182], []⟩,
  ⟨[.cls 12 183], []⟩,
  ⟨[.cls 13 184], []⟩,
  ⟨[.eps 179], []⟩,
  ⟨[.eps 191], []⟩,
  ⟨[.cls 0 187], []⟩,
  ⟨[.cls 0 188], []⟩,
  ⟨[.cls 0 189], []⟩,
  ⟨[.eps 185], []⟩,
  ⟨[], [bs "DS_YMD"]⟩,
  ⟨[.cls 1 192, .cls 3 193], []⟩,
  ⟨[.cls 2 194], []⟩,
  ⟨[.cls 4 194], []⟩,
  ⟨[.eps 190], []⟩,
  ⟨[.eps 197], []⟩,
  ⟨[.eps 202], []⟩,
  ⟨[.cls 0 198], []⟩,
  ⟨[.cls 0 199], []⟩,
  ⟨[.cls 0 200], []⟩]

/-- The states of datescan.nfa. -/
def dateStates5 : List IState := [
  ⟨[.eps 196], []⟩,
  ⟨[], [bs "DS_DMY"]⟩,
  ⟨[.cls 10 203], []⟩,
  ⟨[.cls 11 204], []⟩,
  ⟨[.cls 12 205], []⟩,
  ⟨[.cls 13 206], []⟩,
  ⟨[.eps 201], []⟩,
  ⟨[.eps 213], []⟩,
  ⟨[.cls 1 209, .cls 3 210], []⟩,
  ⟨[.cls 2 211], []⟩,
  ⟨[.cls 4 211], []⟩,
  ⟨[.eps 207], []⟩,
  ⟨[.eps 218], []⟩,
  ⟨[.cls 0 214], []⟩,
  ⟨[.cls 0 215], []⟩,
  ⟨[.cls 0 216], []⟩,
  ⟨[.eps 212], []⟩,
  ⟨[], [bs "DS_DMY"]⟩,
  ⟨[.cls 10 219], []⟩,
  ⟨[.cls 11 220], []⟩,
  ⟨[.cls 12 221], []⟩,
  ⟨[.cls 13 222], []⟩,
  ⟨[.eps 217], []⟩]

/-- The states of datescan.nfa. -/
def dateStates : List IState := dateStates0 ++ (dateStates1 ++ (dateStates2 ++ (dateStates3 ++ (dateStates4 ++ (dateStates5)))))

/-- datescan.nfa as it is read. -/
def dateAuto : IAuto := ⟨datescanClasses, dateStates, 0, [⟨[⟨bs "DS_D", .tag (bs "DS_D"), false⟩, ⟨bs "DS_Y", .tag (bs "DS_Y"), false⟩, ⟨bs "DS_YYMMDD", .tag (bs "DS_YYMMDD"), false⟩, ⟨bs "DS_SCALED", .tag (bs "DS_SCALED"), false⟩, ⟨bs "DS_M", .tag (bs "DS_M"), false⟩, ⟨bs "DS_DM", .tag (bs "DS_DM"), false⟩, ⟨bs "DS_MD", .tag (bs "DS_MD"), false⟩, ⟨bs "DS_YM", .tag (bs "DS_YM"), false⟩, ⟨bs "DS_MY", .tag (bs "DS_MY"), false⟩, ⟨bs "DS_YMD", .tag (bs "DS_YMD"), false⟩, ⟨bs "DS_DMY", .tag (bs "DS_DMY"), false⟩], some (bs "DS_FAILURE")⟩], [], [0]⟩

/-- The groups of characters. -/
def dateGroups : Grouping := ⟨7,
  [0, 0, 0, 0, 0, 0, 0, 0, 0, 0, 0, 0, 0, 0, 0, 0, 0, 0, 0, 0, 0, 0, 0, 0, 0, 0, 0, 0, 0, 0, 0, 0, 0, 0, 0, 0, 0, 0, 0, 0, 0, 0, 0, 0, 0, 0, 0, 0, 1, 2, 3, 4, 5, 5, 5, 5, 5, 5, 0, 0, 0, 0, 0, 0, 0, 6, 6, 6, 6, 6, 6, 6, 6, 6, 6, 6, 6, 6, 6, 6, 6, 6, 6, 6, 6, 6, 6, 6, 6, 6, 6, 0, 0, 0, 0, 0, 0, 6, 6, 6, 6, 6, 6, 6, 6, 6, 6, 6, 6, 6, 6, 6, 6, 6, 6, 6, 6, 6, 6, 6, 6, 6, 6, 0, 0, 0, 0, 0, 0, 0, 0, 0, 0, 0, 0, 0, 0, 0, 0, 0, 0, 0, 0, 0, 0, 0, 0, 0, 0, 0, 0, 0, 0, 0, 0, 0, 0, 0, 0, 0, 0, 0, 0, 0, 0, 0, 0, 0, 0, 0, 0, 0, 0, 0, 0, 0, 0, 0, 0, 0, 0, 0, 0, 0, 0, 0, 0, 0, 0, 0, 0, 0, 0, 0, 0, 0, 0, 0, 0, 0, 0, 0, 0, 0, 0, 0, 0, 0, 0, 0, 0, 0, 0, 0, 0, 0, 0, 0, 0, 0, 0, 0, 0, 0, 0, 0, 0, 0, 0, 0, 0, 0, 0, 0, 0, 0, 0, 0, 0, 0, 0, 0, 0, 0, 0, 0, 0, 0, 0, 0, 0, 0, 0, 0, 0, 0],
  [64, 12, 62, 16, 6, 34, 62, 16, 56, 62, 60, 62, 62, 62, 60, 62, 62, 62, 62, 62, 62, 62, 62, 62, 62, 62, 62, 62, 62, 60, 60, 60, 60, 60, 60]⟩

/-- A character of each group. -/
def dateReps : List Nat := [0, 48, 49, 50, 51, 52, 65]

/-- What is reached without input. -/
def dateClosure0 : Tree (Nat × Nat) :=
  .node 16 (.node 8 (.node 4 (.node 2 (.node 1 (.leaf (411376140863171207241769577016724640030854901041872664096940297, 1)) (.leaf (2, 0))) (.node 1 (.leaf (4, 0)) (.leaf (8, 0)))) (.node 2 (.node 1 (.leaf (16, 0)) (.leaf (32, 0))) (.node 1 (.leaf (68, 1)) (.leaf (128, 0))))) (.node 4 (.node 2 (.node 1 (.leaf (256, 0)) (.leaf (512, 0))) (.node 1 (.leaf (1024, 0)) (.leaf (2176, 1)))) (.node 2 (.node 1 (.leaf (4096, 0)) (.leaf (8192, 0))) (.node 1 (.leaf (16384, 0)) (.leaf (32768, 0)))))) (.node 8 (.node 4 (.node 2 (.node 1 (.leaf (65536, 0)) (.leaf (135168, 1))) (.node 1 (.leaf (262144, 0)) (.leaf (524288, 0)))) (.node 2 (.node 1 (.leaf (1048576, 0)) (.leaf (2097152, 0))) (.node 1 (.leaf (4194304, 0)) (.leaf (8388608, 0))))) (.node 4 (.node 2 (.node 1 (.leaf (16777216, 0)) (.leaf (33554432, 0))) (.node 1 (.leaf (67108864, 0)) (.leaf (134217728, 0)))) (.node 2 (.node 1 (.leaf (268435456, 0)) (.leaf (536870912, 0))) (.node 1 (.leaf (1073741824, 0)) (.leaf (2147483648, 0))))))

/-- What is reached without input. -/
def dateClosure1 : Tree (Nat × Nat) :=
  .node 16 (.node 8 (.node 4 (.node 2 (.node 1 (.leaf (4294967296, 0)) (.leaf (8589934592, 0))) (.node 1 (.leaf (17179869184, 0)) (.leaf (38654705664, 1)))) (.node 2 (.node 1 (.leaf (68719476736, 0)) (.leaf (137438953472, 0))) (.node 1 (.leaf (274877906944, 0)) (.leaf (549755813888, 0))))) (.node 4 (.node 2 (.node 1 (.leaf (1168231104512, 1)) (.leaf (10995116277760, 1))) (.node 1 (.leaf (4398046511104, 0)) (.leaf (8796093022208, 0)))) (.node 2 (.node 1 (.leaf (17592186044416, 0)) (.leaf (35184372088832, 0))) (.node 1 (.leaf (74766790688768, 1)) (.leaf (9147936743096320, 1)))))) (.node 8 (.node 4 (.node 2 (.node 1 (.leaf (281474976710656, 0)) (.leaf (562949953421312, 0))) (.node 1 (.leaf (1125899906842624, 0)) (.leaf (11399736556781568, 2)))) (.node 2 (.node 1 (.leaf (4503599627370496, 0)) (.leaf (9007199254740992, 0))) (.node 1 (.leaf (18014398509481984, 0)) (.leaf (36028797018963968, 0))))) (.node 4 (.node 2 (.node 1 (.leaf (76561193665298432, 1)) (.leaf (144115188075855872, 0))) (.node 1 (.leaf (288230376151711744, 0)) (.leaf (576460752303423488, 0)))) (.node 2 (.node 1 (.leaf (1152921504606846976, 0)) (.leaf (2449958197289549824, 1))) (.node 1 (.leaf (4611686018427387904, 0)) (.leaf (599519182395560427520, 1))))))

/-- What is reached without input. -/
def dateClosure2 : Tree (Nat × Nat) :=
  .node 16 (.node 8 (.node 4 (.node 2 (.node 1 (.leaf (18446744073709551616, 0)) (.leaf (36893488147419103232, 0))) (.node 1 (.leaf (73786976294838206464, 0)) (.leaf (747093134985236840448, 2)))) (.node 2 (.node 1 (.leaf (295147905179352825856, 0)) (.leaf (590295810358705651712, 0))) (.node 1 (.leaf (1180591620717411303424, 0)) (.leaf (2361183241434822606848, 0))))) (.node 4 (.node 2 (.node 1 (.leaf (5017514388048998039552, 1)) (.leaf (613907642773053877780480, 1))) (.node 1 (.leaf (18889465931478580854784, 0)) (.leaf (37778931862957161709568, 0)))) (.node 2 (.node 1 (.leaf (75557863725914323419136, 0)) (.leaf (765023370224882524618752, 2))) (.node 1 (.leaf (302231454903657293676544, 0)) (.leaf (604462909807314587353088, 0)))))) (.node 8 (.node 4 (.node 2 (.node 1 (.leaf (1208925819614629174706176, 0)) (.leaf (2417851639229258349412352, 0))) (.node 1 (.leaf (5137934733362173992501248, 1)) (.leaf (628641426199607170847211520, 1)))) (.node 2 (.node 1 (.leaf (19342813113834066795298816, 0)) (.leaf (38685626227668133590597632, 0))) (.node 1 (.leaf (77371252455336267181195264, 0)) (.leaf (783383931110279705209602048, 2))))) (.node 4 (.node 2 (.node 1 (.leaf (309485009821345068724781056, 0)) (.leaf (618970019642690137449562112, 0))) (.node 1 (.leaf (1237940039285380274899124224, 0)) (.leaf (2475880078570760549798248448, 0)))) (.node 2 (.node 1 (.leaf (5261245166962866168321277952, 1)) (.leaf (1277554120542512443695896199168, 1))) (.node 1 (.leaf (19807040628566084398385987584, 0)) (.leaf (39614081257132168796771975168, 0))))))

/-- What is reached without input. -/
def dateClosure3 : Tree (Nat × Nat) :=
  .node 16 (.node 8 (.node 4 (.node 2 (.node 1 (.leaf (79228162514264337593543950336, 0)) (.leaf (158456325028528675187087900672, 0))) (.node 1 (.leaf (1594466770599569794070072000512, 2)) (.leaf (633825300114114700748351602688, 0)))) (.node 2 (.node 1 (.leaf (1267650600228229401496703205376, 0)) (.leaf (2535301200456458802993406410752, 0))) (.node 1 (.leaf (5070602400912917605986812821504, 0)) (.leaf (10775030101939949912721977245696, 1))))) (.node 4 (.node 2 (.node 1 (.leaf (1318356624237358577556571333591040, 1)) (.leaf (40564819207303340847894502572032, 0))) (.node 1 (.leaf (81129638414606681695789005144064, 0)) (.leaf (162259276829213363391578010288128, 0)))) (.node 2 (.node 1 (.leaf (1642875177895785304339727354167296, 2)) (.leaf (649037107316853453566312041152512, 0))) (.node 1 (.leaf (1298074214633706907132624082305024, 0)) (.leaf (2596148429267413814265248164610048, 0)))))) (.node 8 (.node 4 (.node 2 (.node 1 (.leaf (5192296858534827628530496329220096, 0)) (.leaf (10384593717069655257060992658440192, 0))) (.node 1 (.leaf (21418224541456163967688297358032896, 1)) (.leaf (2699994366438110366835858091194449920, 1)))) (.node 2 (.node 1 (.leaf (83076749736557242056487941267521536, 0)) (.leaf (166153499473114484112975882535043072, 0))) (.node 1 (.leaf (332306998946228968225951765070086144, 0)) (.leaf (3364608364330568303287761621334622208, 2))))) (.node 4 (.node 2 (.node 1 (.leaf (1329227995784915872903807060280344576, 0)) (.leaf (2658455991569831745807614120560689152, 0))) (.node 1 (.leaf (5316911983139663491615228241121378304, 0)) (.leaf (10633823966279326983230456482242756608, 0)))) (.node 2 (.node 1 (.leaf (22596875928343569839364720024765857792, 1)) (.leaf (42535295865117307932921825928971026432, 0))) (.node 1 (.leaf (5529588462465250031279837370766233436160, 1)) (.leaf (170141183460469231731687303715884105728, 0))))))

/-- What is reached without input. -/
def dateClosure4 : Tree (Nat × Nat) :=
  .node 16 (.node 8 (.node 4 (.node 2 (.node 1 (.leaf (340282366920938463463374607431768211456, 0)) (.leaf (680564733841876926926749214863536422912, 0))) (.node 1 (.leaf (6890717930149003885133335800493306281984, 2)) (.leaf (176946830798888001000954795864519469957120, 1)))) (.node 2 (.node 1 (.leaf (5444517870735015415413993718908291383296, 0)) (.leaf (10889035741470030830827987437816582766592, 0))) (.node 1 (.leaf (21778071482940061661655974875633165533184, 0)) (.leaf (220502973764768124324266745615785801023488, 2))))) (.node 4 (.node 2 (.node 1 (.leaf (87112285931760246646623899502532662132736, 0)) (.leaf (174224571863520493293247799005065324265472, 0))) (.node 1 (.leaf (348449143727040986586495598010130648530944, 0)) (.leaf (696898287454081973172991196020261297061888, 0)))) (.node 2 (.node 1 (.leaf (1480908860839924192992606291543055256256512, 1)) (.leaf (13937965749081639463459823920405225941237760, 1))) (.node 1 (.leaf (362387109476122626049955421930535874472181760, 1)) (.leaf (11150372599265311570767859136324180752990208, 0)))))) (.node 8 (.node 4 (.node 2 (.node 1 (.leaf (22300745198530623141535718272648361505980416, 0)) (.leaf (44601490397061246283071436545296723011960832, 0))) (.node 1 (.leaf (451590090270245118616098295021129320496103424, 2)) (.leaf (178405961588244985132285746181186892047843328, 0)))) (.node 2 (.node 1 (.leaf (356811923176489970264571492362373784095686656, 0)) (.leaf (713623846352979940529142984724747568191373312, 0))) (.node 1 (.leaf (1427247692705959881058285969449495136382746624, 0)) (.leaf (3032901347000164747248857685080177164813336576, 1))))) (.node 4 (.node 2 (.node 1 (.leaf (371084400103549569075154352056868735459514122240, 1)) (.leaf (11417981541647679048466287755595961091061972992, 0))) (.node 1 (.leaf (22835963083295358096932575511191922182123945984, 0)) (.leaf (45671926166590716193865151022383844364247891968, 0)))) (.node 2 (.node 1 (.leaf (462428252436731001462884654101636424188009906176, 2)) (.leaf (11874700803313586210404939265819799534704451911680, 1))) (.node 1 (.leaf (365375409332725729550921208179070754913983135744, 0)) (.leaf (730750818665451459101842416358141509827966271488, 0))))))

/-- What is reached without input. -/
def dateClosure5 : Tree (Nat × Nat) :=
  .node 16 (.node 8 (.node 4 (.node 2 (.node 1 (.leaf (1461501637330902918203684832716283019655932542976, 0)) (.leaf (14797704077975392046812308931252365574016316997632, 2))) (.node 1 (.leaf (5846006549323611672814739330865132078623730171904, 0)) (.leaf (11692013098647223345629478661730264157247460343808, 0)))) (.node 2 (.node 1 (.leaf (23384026197294446691258957323460528314494920687616, 0)) (.leaf (46768052394588893382517914646921056628989841375232, 0))) (.node 1 (.leaf (99382111338501398437850568624707245336603412922368, 1)) (.leaf (24132315035607868985379243957811265220558758149619712, 1))))) (.node 4 (.node 2 (.node 1 (.leaf (374144419156711147060143317175368453031918731001856, 0)) (.leaf (748288838313422294120286634350736906063837462003712, 0))) (.node 1 (.leaf (1496577676626844588240573268701473812127674924007424, 0)) (.leaf (2993155353253689176481146537402947624255349848014848, 0)))) (.node 2 (.node 1 (.leaf (30118625742115247338341537032617160469069457845649408, 2)) (.leaf (11972621413014756705924586149611790497021399392059392, 0))) (.node 1 (.leaf (23945242826029513411849172299223580994042798784118784, 0)) (.leaf (47890485652059026823698344598447161988085597568237568, 0)))))) (.node 8 (.node 4 (.node 2 (.node 1 (.leaf (95780971304118053647396689196894323976171195136475136, 0)) (.leaf (203534564021250864000717964543400438449363789665009664, 1))) (.node 1 (.leaf (383123885216472214589586756787577295904684780545900544, 0)) (.leaf (98845962385849831364113383251194942343408673380842340352, 1)))) (.node 2 (.node 1 (.leaf (1532495540865888858358347027150309183618739122183602176, 0)) (.leaf (3064991081731777716716694054300618367237478244367204352, 0))) (.node 1 (.leaf (6129982163463555433433388108601236734474956488734408704, 0)) (.leaf (12259964326927110866866776217202473468949912977468817408, 0))))) (.node 4 (.node 2 (.node 1 (.leaf (123365891039704053097846935685599889281308499335779975168, 2)) (.leaf (3187590725001048825385361816472643101926977374141892526080, 1))) (.node 1 (.leaf (98079714615416886934934209737619787751599303819750539264, 0)) (.leaf (196159429230833773869868419475239575503198607639501078528, 0)))) (.node 2 (.node 1 (.leaf (392318858461667547739736838950479151006397215279002157056, 0)) (.leaf (3972228441924383920864835494373601403939771804699896840192, 2))) (.node 1 (.leaf (1569275433846670190958947355801916604025588861116008628224, 0)) (.leaf (3138550867693340381917894711603833208051177722232017256448, 0))))))

/-- What is reached without input. -/
def dateClosure6 : Tree (Nat × Nat) :=
  .node 15 (.node 7 (.node 3 (.node 1 (.leaf (6277101735386680763835789423207666416102355444464034512896, 0)) (.node 1 (.leaf (12554203470773361527671578846415332832204710888928069025792, 0)) (.leaf (26677682375393393246302105048632582268435010638972146679808, 1)))) (.node 2 (.node 1 (.leaf (251084069415467230553431576928306656644094217778561380515840, 1)) (.leaf (6528185804802147994389221000135973072746449662242595893411840, 1))) (.node 1 (.leaf (200867255532373784442745261542645325315275374222849104412672, 0)) (.leaf (401734511064747568885490523085290650630550748445698208825344, 0))))) (.node 4 (.node 2 (.node 1 (.leaf (803469022129495137770981046170581301261101496891396417650688, 0)) (.leaf (8135123849061138269931183092477135675268652656025388728713216, 2))) (.node 1 (.leaf (3213876088517980551083924184682325205044405987565585670602752, 0)) (.leaf (6427752177035961102167848369364650410088811975131171341205504, 0)))) (.node 2 (.node 1 (.leaf (12855504354071922204335696738729300820177623950262342682411008, 0)) (.leaf (25711008708143844408671393477458601640355247900524685364822016, 0))) (.node 1 (.leaf (51422017416287688817342786954917203280710495801049370729644032, 0)) (.leaf (106057910921093358185769498094516731766465397589664327129890816, 1)))))) (.node 8 (.node 4 (.node 2 (.node 1 (.leaf (13369724528234799092509124608278472852984728908272836389707448320, 1)) (.leaf (411376139330301510538742295639337626245683966408394965837152256, 0))) (.node 1 (.leaf (822752278660603021077484591278675252491367932816789931674304512, 0)) (.leaf (1645504557321206042154969182557350504982735865633579863348609024, 0)))) (.node 2 (.node 1 (.leaf (16660733642877211176819062973393173862950200639539996116404666368, 2)) (.leaf (427831184903513570960291987464911131295511325064730764470638346240, 1))) (.node 1 (.leaf (13164036458569648337239753460458804039861886925068638906788872192, 0)) (.leaf (26328072917139296674479506920917608079723773850137277813577744384, 0))))) (.node 4 (.node 2 (.node 1 (.leaf (52656145834278593348959013841835216159447547700274555627155488768, 0)) (.leaf (533143476572070757658210015148581563614406420465279875724949323776, 2))) (.node 1 (.leaf (210624583337114373395836055367340864637790190801098222508621955072, 0)) (.leaf (421249166674228746791672110734681729275580381602196445017243910144, 0)))) (.node 2 (.node 1 (.leaf (842498333348457493583344221469363458551160763204392890034487820288, 0)) (.leaf (1684996666696914987166688442938726917102321526408785780068975640576, 0))) (.node 1 (.leaf (3369993333393829974333376885877453834204643052817571560137951281152, 0)) (.leaf (6950611250124774322062589827122248533047076296436241342784524517376, 1))))))

/-- What is reached without input. -/
def dateClosure : Tree (Nat × Nat) := (.node 96 (.node 32 dateClosure0 (.node 32 dateClosure1 dateClosure2)) (.node 64 (.node 32 dateClosure3 dateClosure4) (.node 32 dateClosure5 dateClosure6)))

/-- The transitions of the states. -/
def dateRows0 : List (List (Nat × Nat)) := [
  [(60, 251084069415467230553431576928306656644094217778561380515840), (60, 13937965749081639463459823920405225941237760), (60, 10995116277760), (62, 16777216), (62, 262144), (60, 2)],
  [],
  [],
  [(12, 16), (16, 32)],
  [(62, 68)],
  [(6, 68)],
  [],
  [],
  [(34, 512), (16, 1024)],
  [(62, 2176)],
  [(56, 2176)],
  [],
  [],
  [(60, 16384)],
  [(62, 32768)],
  [(62, 65536)],
  [(62, 135168)],
  [],
  [(62, 524288)],
  [(62, 1048576)],
  [(62, 2097152)],
  [(62, 4194304)],
  [(62, 8388608)],
  [],
  [(62, 33554432)],
  [(62, 67108864)],
  [(62, 134217728)],
  [(62, 268435456)],
  [(62, 536870912)],
  [(62, 1073741824)],
  [(62, 2147483648)],
  [],
  [],
  [(62, 8589934592), (62, 17179869184)],
  [(64, 38654705664)],
  [],
  [],
  [(64, 274877906944)],
  [(64, 549755813888)],
  [(64, 1168231104512)]]

/-- The transitions of the states. -/
def dateRows1 : List (List (Nat × Nat)) := [
  [],
  [],
  [],
  [(64, 17592186044416)],
  [(64, 35184372088832)],
  [(64, 74766790688768)],
  [],
  [],
  [(12, 562949953421312), (16, 1125899906842624)],
  [(62, 11399736556781568)],
  [(6, 11399736556781568)],
  [],
  [],
  [(64, 18014398509481984)],
  [(64, 36028797018963968)],
  [(64, 76561193665298432)],
  [],
  [(60, 4611686018427387904)],
  [(64, 576460752303423488)],
  [(64, 1152921504606846976)],
  [(64, 2449958197289549824)],
  [],
  [],
  [],
  [(64, 36893488147419103232)],
  [(64, 73786976294838206464)],
  [(64, 747093134985236840448)],
  [],
  [],
  [(12, 1180591620717411303424), (16, 2361183241434822606848)],
  [(62, 5017514388048998039552)],
  [(6, 5017514388048998039552)],
  [],
  [],
  [(34, 37778931862957161709568), (16, 75557863725914323419136)],
  [(62, 765023370224882524618752)],
  [(56, 765023370224882524618752)],
  [],
  [],
  [(64, 1208925819614629174706176)]]

/-- The transitions of the states. -/
def dateRows2 : List (List (Nat × Nat)) := [
  [(64, 2417851639229258349412352)],
  [(64, 5137934733362173992501248)],
  [],
  [],
  [(64, 38685626227668133590597632)],
  [(64, 77371252455336267181195264)],
  [(64, 783383931110279705209602048)],
  [],
  [],
  [(34, 1237940039285380274899124224), (16, 2475880078570760549798248448)],
  [(62, 5261245166962866168321277952)],
  [(56, 5261245166962866168321277952)],
  [],
  [],
  [(60, 39614081257132168796771975168)],
  [(62, 79228162514264337593543950336)],
  [(62, 158456325028528675187087900672)],
  [(62, 1594466770599569794070072000512)],
  [],
  [],
  [(64, 2535301200456458802993406410752)],
  [(64, 5070602400912917605986812821504)],
  [(64, 10775030101939949912721977245696)],
  [],
  [],
  [(64, 81129638414606681695789005144064)],
  [(64, 162259276829213363391578010288128)],
  [(64, 1642875177895785304339727354167296)],
  [],
  [],
  [(60, 2596148429267413814265248164610048)],
  [(62, 5192296858534827628530496329220096)],
  [(62, 10384593717069655257060992658440192)],
  [(62, 21418224541456163967688297358032896)],
  [],
  [],
  [(34, 166153499473114484112975882535043072), (16, 332306998946228968225951765070086144)],
  [(62, 3364608364330568303287761621334622208)],
  [(56, 3364608364330568303287761621334622208)],
  []]

/-- The transitions of the states. -/
def dateRows3 : List (List (Nat × Nat)) := [
  [(60, 42535295865117307932921825928971026432)],
  [(64, 5316911983139663491615228241121378304)],
  [(64, 10633823966279326983230456482242756608)],
  [(64, 22596875928343569839364720024765857792)],
  [],
  [],
  [],
  [(34, 340282366920938463463374607431768211456), (16, 680564733841876926926749214863536422912)],
  [(62, 6890717930149003885133335800493306281984)],
  [(56, 6890717930149003885133335800493306281984)],
  [],
  [],
  [(64, 10889035741470030830827987437816582766592)],
  [(64, 21778071482940061661655974875633165533184)],
  [(64, 220502973764768124324266745615785801023488)],
  [],
  [],
  [(12, 348449143727040986586495598010130648530944), (16, 696898287454081973172991196020261297061888)],
  [(62, 1480908860839924192992606291543055256256512)],
  [(6, 1480908860839924192992606291543055256256512)],
  [],
  [],
  [],
  [(64, 22300745198530623141535718272648361505980416)],
  [(64, 44601490397061246283071436545296723011960832)],
  [(64, 451590090270245118616098295021129320496103424)],
  [],
  [],
  [(34, 713623846352979940529142984724747568191373312), (16, 1427247692705959881058285969449495136382746624)],
  [(62, 3032901347000164747248857685080177164813336576)],
  [(56, 3032901347000164747248857685080177164813336576)],
  [],
  [],
  [(12, 22835963083295358096932575511191922182123945984), (16, 45671926166590716193865151022383844364247891968)],
  [(62, 462428252436731001462884654101636424188009906176)],
  [(6, 462428252436731001462884654101636424188009906176)],
  [],
  [],
  [(64, 730750818665451459101842416358141509827966271488)],
  [(64, 1461501637330902918203684832716283019655932542976)]]

/-- The transitions of the states. -/
def dateRows4 : List (List (Nat × Nat)) := [
  [(64, 14797704077975392046812308931252365574016316997632)],
  [],
  [],
  [(34, 23384026197294446691258957323460528314494920687616), (16, 46768052394588893382517914646921056628989841375232)],
  [(62, 99382111338501398437850568624707245336603412922368)],
  [(56, 99382111338501398437850568624707245336603412922368)],
  [],
  [],
  [(60, 748288838313422294120286634350736906063837462003712)],
  [(62, 1496577676626844588240573268701473812127674924007424)],
  [(62, 2993155353253689176481146537402947624255349848014848)],
  [(62, 30118625742115247338341537032617160469069457845649408)],
  [],
  [(60, 383123885216472214589586756787577295904684780545900544)],
  [(64, 47890485652059026823698344598447161988085597568237568)],
  [(64, 95780971304118053647396689196894323976171195136475136)],
  [(64, 203534564021250864000717964543400438449363789665009664)],
  [],
  [],
  [],
  [(60, 3064991081731777716716694054300618367237478244367204352)],
  [(62, 6129982163463555433433388108601236734474956488734408704)],
  [(62, 12259964326927110866866776217202473468949912977468817408)],
  [(62, 123365891039704053097846935685599889281308499335779975168)],
  [],
  [],
  [(64, 196159429230833773869868419475239575503198607639501078528)],
  [(64, 392318858461667547739736838950479151006397215279002157056)],
  [(64, 3972228441924383920864835494373601403939771804699896840192)],
  [],
  [],
  [(12, 6277101735386680763835789423207666416102355444464034512896), (16, 12554203470773361527671578846415332832204710888928069025792)],
  [(62, 26677682375393393246302105048632582268435010638972146679808)],
  [(6, 26677682375393393246302105048632582268435010638972146679808)],
  [],
  [],
  [],
  [(64, 401734511064747568885490523085290650630550748445698208825344)],
  [(64, 803469022129495137770981046170581301261101496891396417650688)],
  [(64, 8135123849061138269931183092477135675268652656025388728713216)]]

/-- The transitions of the states. -/
def dateRows5 : List (List (Nat × Nat)) := [
  [],
  [],
  [(60, 12855504354071922204335696738729300820177623950262342682411008)],
  [(62, 25711008708143844408671393477458601640355247900524685364822016)],
  [(62, 51422017416287688817342786954917203280710495801049370729644032)],
  [(62, 106057910921093358185769498094516731766465397589664327129890816)],
  [],
  [],
  [(12, 822752278660603021077484591278675252491367932816789931674304512), (16, 1645504557321206042154969182557350504982735865633579863348609024)],
  [(62, 16660733642877211176819062973393173862950200639539996116404666368)],
  [(6, 16660733642877211176819062973393173862950200639539996116404666368)],
  [],
  [],
  [(64, 26328072917139296674479506920917608079723773850137277813577744384)],
  [(64, 52656145834278593348959013841835216159447547700274555627155488768)],
  [(64, 533143476572070757658210015148581563614406420465279875724949323776)],
  [],
  [],
  [(60, 842498333348457493583344221469363458551160763204392890034487820288)],
  [(62, 1684996666696914987166688442938726917102321526408785780068975640576)],
  [(62, 3369993333393829974333376885877453834204643052817571560137951281152)],
  [(62, 6950611250124774322062589827122248533047076296436241342784524517376)],
  []]

/-- The transitions of the states. -/
def dateRows : List (List (Nat × Nat)) := dateRows0 ++ (dateRows1 ++ (dateRows2 ++ (dateRows3 ++ (dateRows4 ++ (dateRows5)))))

/-- The tables. -/
def dateTables : List TagTable := [⟨[(bs "DS_D", 6), (bs "DS_Y", 4224), (bs "DS_YYMMDD", 2155872256), (bs "DS_SCALED", 4294967296), (bs "DS_M", 68719476736), (bs "DS_DM", 4507997673881600), (bs "DS_MD", 299759591197780213760), (bs "DS_YM", 633825602345569604405645279232), (bs "DS_MY", 649037416801863274911380765933568), (bs "DS_YMD", 1569658557731886750328358170184068135878314874358187687936), (bs "DS_DMY", 210627797213202897222572094576725464762866851818399053610070573056)], bs "DS_FAILURE"⟩]

/-- The sets that can be reached. -/
def datePairs0 : Tree (PairNode Nat) :=
  .node 16 (.node 8 (.node 4 (.node 2 (.node 1 (.leaf (411376140863171207241769577016724640030854901041872664096940297, 1, 1702217140030213757480277337)) (.leaf (0, 0, 0))) (.node 1 (.leaf (340448520420411615726419446297251807744, 1, 4722367608769560576518)) (.leaf (823003365795757881728030210910857676093097723423180750577745938, 0, 20287980409386336375806376419366)))) (.node 2 (.node 1 (.leaf (1645755644456360925641478566381931866340272620271348357259346978, 0, 20289837338334734881400012548230)) (.leaf (251087135154837814582876785344747080770005833351958291038722, 0, 20287361444089061294404119175686))) (.node 1 (.leaf (81129677100270379313097196175360, 2, 2305847409407688704)) (.leaf (6894082538513335218459993787022969407616, 0, 40564819811766394770397182820358))))) (.node 4 (.node 2 (.node 1 (.leaf (38654705664, 0, 10141204801825835211973625643008)) (.leaf (16660733649008690380387497688145804086932955463739241823977635908, 0, 20287361514924575425947408547846))) (.node 1 (.leaf (401734511064747591186235721615913792166269021111690555555840, 0, 10151108322140118254722574450688)) (.leaf (6131478741140189172104167274433319182545208780171806848, 0, 40564819962882158251022848638982)))) (.node 2 (.node 1 (.leaf (162259354200540758626194392350720, 1, 4611694818815377408)) (.leaf (25837961216, 1, 34078726))) (.node 1 (.leaf (10894352653453171703245422280725533556736, 0, 10141206010751943056978952060928)) (.leaf (12262957482280364556043257522196201445102843540242759680, 1, 302231526961251365715974)))))) (.node 8 (.node 4 (.node 2 (.node 1 (.leaf (26328072917139297405230325586369067181566190208296802078708203520, 0, 10151108322140118254722574450688)) (.leaf (803469022129495182372471443231827584332538042223303801700352, 1, 19807040628566085497897615360))) (.node 1 (.leaf (1642875961280465957713783321264128, 0, 162259276829407054397866007068672)) (.leaf (25906118656, 1, 68157446)))) (.node 2 (.node 1 (.leaf (21788705306906343406490844561373757702144, 1, 2417852215690010652835840)) (.leaf (123396009665446168345185278817099277041347362889603878912, 0, 40564819811766394770397233938438))) (.node 1 (.leaf (52656145834278594810460651172738134363132380416593604080106995712, 1, 19807040628566085497897615360)) (.leaf (8135123849061138721521273362722254291366947677229476015505408, 0, 325350449364826502327888232054784))))) (.node 4 (.node 2 (.node 1 (.leaf (1237940039285380274899124224, 1, 18446744073709551616)) (.leaf (2596148429268599017571984003301376, 0, 649037107317148601541860138156032))) (.node 1 (.leaf (2596150905149858179953251212853248, 0, 649037107317222388729261208895488)) (.leaf (2596149667207457711331541491122176, 0, 649037107317167048215565103529984)))) (.node 2 (.node 1 (.leaf (26042433536, 1, 136314886)) (.leaf (220525570640696473032040843697984559382528, 0, 1298074267826442970176307769376768))) (.node 1 (.leaf (196207319716485832896692120355139223121645496269130432512, 0, 10141206010751943056978952060928)) (.leaf (533143476572070772455914093123973610426715351717722010934931619840, 0, 325350449364826502327888232054784))))))

/-- The sets that can be reached. -/
def datePairs1 : Tree (PairNode Nat) :=
  .node 16 (.node 8 (.node 4 (.node 2 (.node 1 (.leaf (713623846352979940529142984724747568191373312, 1, 79228162514264337593543950336)) (.leaf (12855504354071922204335696738729300820177623950262342682411008, 3, 1267650600228229401496703205376))) (.node 1 (.leaf (12855504354071923631583389444689181878463593399757479065157632, 1, 1584563250285286751870879006720)) (.leaf (12855504354071922917959543091709241349320608675009910873784320, 1, 1346878762742493739090247155712)))) (.node 2 (.node 1 (.leaf (5261245166962866168321277952, 0, 2596148429267413814265248164610048)) (.leaf (5192296858539845142918545327259648, 0, 649037107317443749376670746804224))) (.node 1 (.leaf (5192302119779994591396664650498048, 0, 2596148429268004110075606870261760)) (.leaf (26315063296, 0, 81129638414606681695789273579526))))) (.node 4 (.node 2 (.node 1 (.leaf (348491679022906103894428519836059619557376, 0, 5192296877877640742364563124518912)) (.leaf (696940822749947090480924117846190268088320, 0, 5192296935906080083866763510415360))) (.node 1 (.leaf (42535295865117307932921825928971026432, 0, 5192296858534827628530496329220096)) (.leaf (392414639432971665793384240710278446243290992460951453696, 1, 2417852215690010652835840)))) (.node 2 (.node 1 (.leaf (23384026197294446691258957323460528314494920687616, 1, 79228162514264337593543950336)) (.leaf (842498333348457493583344221469363458551160763204392890034487820288, 3, 1267650600228229401496703205376))) (.node 1 (.leaf (842498333348457540351396616058256841069075410125449519024329195520, 1, 1584563250285286751870879006720)) (.leaf (842498333348457516967370418763810149810118086664921204529408507904, 1, 1346878762742493739090247155712)))))) (.node 8 (.node 4 (.node 2 (.node 1 (.leaf (3032901347000164747248857685080177164813336576, 0, 10384593717069655257060992658440192)) (.leaf (25711008708143844408671393477458601640355247900524685364822016, 2, 2535301200456458802993406410752))) (.node 1 (.leaf (25711008708143847441572740477623348889212932980701850178158592, 0, 10387129018270111715863986064850944)) (.leaf (10384593717069655257060992658440192, 1, 1180591620717411303424)))) (.node 2 (.node 1 (.leaf (26843545600, 1, 536870918)) (.leaf (1480908860839924192992606291543055256256512, 0, 5192296858534827628530496329220096))) (.node 1 (.leaf (3972431976488405171728836223113174906318171081211539095552, 0, 1298074267826442970176307769376768)) (.leaf (99382111338501398437850568624707245336603412922368, 0, 10384593717069655257060992658440192))))) (.node 4 (.node 2 (.node 1 (.leaf (1684996666696914987166688442938726917102321526408785780068975640576, 2, 2535301200456458802993406410752)) (.leaf (1684996666696915086548799781440125354952890151116031116672388562944, 0, 10387129018270111715863986064850944))) (.node 1 (.leaf (51422017416287688817342786954917203280710495801049370729644032, 1, 5070602400912917605986812821504)) (.leaf (21418224541456163967688297358032896, 0, 2596148429267413814265248164610048)))) (.node 2 (.node 1 (.leaf (27917287424, 0, 81129638414606681695789005144070)) (.leaf (6277484859271897236050379009964453993398260129244580413440, 0, 5192296877877640742364563124518912))) (.node 1 (.leaf (12554586594658577999886168433172120409500615573708614926336, 0, 5192296935906080083866763510415360)) (.leaf (383123885216472214589586756787577295904684780545900544, 0, 5192296858534827628530496329220096))))))

/-- The sets that can be reached. -/
def datePairs2 : Tree (PairNode Nat) :=
  .node 2 (.node 1 (.leaf (3369993333393829974333376885877453834204643052817571560137951281152, 1, 5070602400912917605986812821504)) (.leaf (106057910921093358185769498094516731766465397589664327129890816, 0, 10384593717069655257060992658440192))) (.node 1 (.leaf (25769803776, 1, 6)) (.node 1 (.leaf (26677682375393393246302105048632582268435010638972146679808, 0, 5192296858534827628530496329220096)) (.leaf (6950611250124774322062589827122248533047076296436241342784524517376, 0, 10384593717069655257060992658440192))))

/-- The sets that can be reached. -/
def datePairs : Tree (PairNode Nat) := (.node 32 datePairs0 (.node 32 datePairs1 datePairs2))

/-- The successors. -/
def dateNext0 : List (List Nat) := [
  [1, 2, 3, 3, 4, 5, 6],
  [1, 1, 1, 1, 1, 1, 1],
  [1, 7, 7, 7, 7, 7, 8],
  [1, 9, 9, 9, 9, 9, 10],
  [1, 9, 9, 11, 11, 11, 10],
  [1, 11, 11, 11, 11, 11, 10],
  [1, 1, 1, 1, 1, 1, 12],
  [1, 13, 13, 13, 13, 13, 14],
  [1, 1, 1, 1, 1, 1, 1],
  [1, 15, 15, 15, 15, 15, 16],
  [1, 1, 1, 1, 1, 1, 17],
  [1, 15, 15, 15, 15, 15, 14],
  [1, 1, 1, 1, 1, 1, 18],
  [1, 19, 19, 19, 19, 19, 8],
  [1, 1, 1, 1, 1, 1, 20],
  [1, 21, 21, 21, 21, 21, 8]]

/-- The successors. -/
def dateNext1 : List (List Nat) := [
  [1, 1, 1, 1, 1, 1, 22],
  [1, 1, 1, 1, 1, 1, 23],
  [1, 24, 25, 25, 26, 27, 1],
  [1, 28, 28, 28, 28, 28, 8],
  [1, 1, 1, 1, 1, 1, 29],
  [1, 28, 28, 28, 28, 28, 30],
  [1, 1, 1, 1, 1, 1, 31],
  [1, 32, 33, 33, 34, 35, 1],
  [1, 36, 36, 36, 36, 36, 1],
  [1, 37, 37, 37, 37, 37, 1],
  [1, 37, 37, 38, 38, 38, 1],
  [1, 38, 38, 38, 38, 38, 1],
  [1, 39, 39, 39, 39, 39, 8],
  [1, 1, 40, 40, 41, 42, 1],
  [1, 1, 1, 1, 1, 1, 43],
  [1, 44, 45, 45, 46, 47, 1]]

/-- The successors. -/
def dateNext2 : List (List Nat) := [
  [1, 48, 48, 48, 48, 48, 1],
  [1, 49, 49, 49, 49, 49, 1],
  [1, 49, 49, 50, 50, 50, 1],
  [1, 50, 50, 50, 50, 50, 1],
  [1, 1, 1, 1, 1, 1, 1],
  [1, 51, 51, 51, 51, 51, 1],
  [1, 51, 51, 51, 51, 51, 1],
  [1, 52, 52, 52, 52, 52, 8],
  [1, 53, 53, 53, 53, 53, 1],
  [1, 53, 53, 1, 1, 1, 1],
  [1, 1, 1, 1, 1, 1, 1],
  [1, 1, 1, 1, 1, 1, 54],
  [1, 55, 55, 55, 55, 55, 1],
  [1, 56, 56, 56, 56, 56, 1],
  [1, 56, 56, 57, 57, 57, 1],
  [1, 57, 57, 57, 57, 57, 1]]

/-- The successors. -/
def dateNext3 : List (List Nat) := [
  [1, 1, 1, 1, 1, 1, 1],
  [1, 58, 58, 58, 58, 58, 1],
  [1, 58, 58, 58, 58, 58, 1],
  [1, 59, 59, 59, 59, 59, 1],
  [1, 60, 60, 60, 60, 60, 8],
  [1, 1, 1, 1, 1, 1, 1],
  [1, 1, 61, 61, 62, 63, 1],
  [1, 1, 1, 1, 1, 1, 1],
  [1, 64, 64, 64, 64, 64, 1],
  [1, 64, 64, 64, 64, 64, 1],
  [1, 65, 65, 65, 65, 65, 1],
  [1, 1, 1, 1, 1, 1, 1],
  [1, 66, 66, 66, 66, 66, 8],
  [1, 67, 67, 67, 67, 67, 1],
  [1, 67, 67, 1, 1, 1, 1],
  [1, 1, 1, 1, 1, 1, 1]]

/-- The successors. -/
def dateNext4 : List (List Nat) := [
  [1, 68, 68, 68, 68, 68, 1],
  [1, 1, 1, 1, 1, 1, 1],
  [1, 66, 66, 66, 66, 66, 8],
  [1, 1, 1, 1, 1, 1, 1],
  [1, 1, 1, 1, 1, 1, 1]]


/-- The groups of the classes. -/
def dateMasks : DateMasks := ⟨62, 60, 64, 12, 16, 6, 34, 56⟩

/-- The table of the positions. -/
def dateTable : List (Nat × Nat) := [
  (62, 6),
  (62, 6),
  (64, 10141204801825835211973625643008),
  (60, 20282409603651670423947251286016),
  (12, 32),
  (62, 20282409603651670423947251286016),
  (16, 128),
  (6, 20282409603651670423947251286016),
  (34, 512),
  (62, 40564819207303340847894502572032),
  (16, 2048),
  (56, 40564819207303340847894502572032),
  (60, 8192),
  (62, 16384),
  (62, 32768),
  (62, 40564819207303340847894502572032),
  (62, 131072),
  (62, 262144),
  (62, 524288),
  (62, 1048576),
  (62, 2097152),
  (62, 81129638414606681695789005144064),
  (62, 8388608),
  (62, 16777216),
  (62, 33554432),
  (62, 67108864),
  (62, 134217728),
  (62, 268435456),
  (62, 536870912),
  (62, 81129638414606681695789005144064),
  (64, 2147483648),
  (64, 4294967296),
  (64, 162259276829213363391578010288128),
  (60, 274877906944),
  (12, 34359738368),
  (62, 274877906944),
  (16, 137438953472),
  (6, 274877906944),
  (64, 549755813888),
  (64, 1099511627776),
  (64, 324518553658426726783156020576256),
  (64, 4398046511104),
  (64, 8796093022208),
  (64, 193514046488576),
  (60, 649037107316853453566312041152512),
  (12, 70368744177664),
  (62, 649037107316853453566312041152512),
  (16, 281474976710656),
  (6, 649037107316853453566312041152512),
  (34, 1125899906842624),
  (62, 144115188075855872),
  (16, 4503599627370496),
  (56, 144115188075855872),
  (60, 18014398509481984),
  (62, 36028797018963968),
  (62, 72057594037927936),
  (62, 144115188075855872),
  (64, 288230376151711744),
  (64, 576460752303423488),
  (64, 1298074214633706907132624082305024),
  (64, 2305843009213693952),
  (64, 4611686018427387904),
  (64, 193690812773950291968),
  (34, 18446744073709551616),
  (62, 2596148429267413814265248164610048),
  (16, 73786976294838206464),
  (56, 2596148429267413814265248164610048),
  (60, 295147905179352825856),
  (62, 590295810358705651712),
  (62, 1180591620717411303424),
  (62, 2596148429267413814265248164610048),
  (34, 4722366482869645213696),
  (62, 604462909807314587353088),
  (16, 18889465931478580854784),
  (56, 604462909807314587353088),
  (60, 75557863725914323419136),
  (62, 151115727451828646838272),
  (62, 302231454903657293676544),
  (62, 604462909807314587353088),
  (64, 1208925819614629174706176),
  (64, 2417851639229258349412352),
  (64, 53192736063043683687071744),
  (60, 5192296858534827628530496329220096),
  (12, 19342813113834066795298816),
  (62, 5192296858534827628530496329220096),
  (16, 77371252455336267181195264),
  (6, 5192296858534827628530496329220096),
  (60, 4951760157141521099596496896),
  (12, 618970019642690137449562112),
  (62, 4951760157141521099596496896),
  (16, 2475880078570760549798248448),
  (6, 4951760157141521099596496896),
  (64, 9903520314283042199192993792),
  (64, 19807040628566084398385987584),
  (64, 831895706399775544732211478528),
  (34, 79228162514264337593543950336),
  (62, 10384593717069655257060992658440192),
  (16, 316912650057057350374175801344),
  (56, 10384593717069655257060992658440192),
  (60, 1267650600228229401496703205376),
  (62, 2535301200456458802993406410752),
  (62, 5070602400912917605986812821504),
  (62, 10384593717069655257060992658440192)]

/-- Where it begins. -/
def dateFirst : Nat := 1702217140030213757480277337

/-- The states with the attributes, and the ends of the expressions. -/
def dateEnds : List (Nat × Nat) := [(4294967296, 103), (6, 104), (4224, 105), (2155872256, 106), (68719476736, 107), (4507997673881600, 108), (299759591197780213760, 109), (633825602345569604405645279232, 110), (649037416801863274911380765933568, 111), (1569658557731886750328358170184068135878314874358187687936, 112), (210627797213202897222572094576725464762866851818399053610070573056, 113)]

theorem date_read : datescanFile.read = .ok dateAuto := by decide +kernel

theorem date_rows : RowsOk dateAuto dateGroups dateClosure dateRows := ⟨by decide +kernel, by decide +kernel, by decide +kernel, by decide +kernel⟩

theorem date_tables : TablesOk dateAuto dateGroups dateReps dateTables := ⟨rfl, by decide +kernel, by decide +kernel, by decide +kernel, by decide +kernel⟩

/-- One pair. -/
abbrev DateIn (i j : Nat) : Prop := PairsIn Nat.beq (stepSet (asRows dateTable)) dateRows dateTables (agree dateEnds) datePairs 69 7 i j

theorem date_pairs0 : DateIn 0 (0 + dateNext0.length) := checkPairs_in (by decide +kernel)

theorem date_pairs1 : DateIn 16 (16 + dateNext1.length) := checkPairs_in (by decide +kernel)

theorem date_pairs2 : DateIn 32 (32 + dateNext2.length) := checkPairs_in (by decide +kernel)

theorem date_pairs3 : DateIn 48 (48 + dateNext3.length) := checkPairs_in (by decide +kernel)

theorem date_pairs4 : DateIn 64 (64 + dateNext4.length) := checkPairs_in (by decide +kernel)

theorem date_pairs : PairsOk Nat.beq (stepSet (asRows dateTable)) dateRows dateTables (agree dateEnds) datePairs 69 7 (dateClosure.get 0).1 dateFirst :=
  ⟨date_pairs0.append (date_pairs1.append (date_pairs2.append (date_pairs3.append (date_pairs4)))), by decide +kernel⟩

/-- The expressions with their ends. -/
def dateExprs : List (RB × Nat) := (dateMasks.types.map Prod.fst).zip [103, 104, 105, 106, 107, 108, 109, 110, 111, 112, 113]

theorem date_table : tableOf dateExprs 0 = dateTable := by decide +kernel

theorem date_start : startsOf dateExprs 0 = dateFirst := by decide +kernel

/-- The group of a character. -/
def dateGroup (c : UInt8) : Nat := dateGroups.of (.chr c)

theorem date_fit_digit : cDigit = maskClass dateGroup dateMasks.digit := funext (forall_byte (by decide +kernel))

theorem date_fit_pos : cPos = maskClass dateGroup dateMasks.pos := funext (forall_byte (by decide +kernel))

theorem date_fit_letter : cLetter = maskClass dateGroup dateMasks.letter := funext (forall_byte (by decide +kernel))

theorem date_fit_d12 : crange 0x31 0x32 = maskClass dateGroup dateMasks.d12 := funext (forall_byte (by decide +kernel))

theorem date_fit_d3 : crange 0x33 0x33 = maskClass dateGroup dateMasks.d3 := funext (forall_byte (by decide +kernel))

theorem date_fit_d01 : crange 0x30 0x31 = maskClass dateGroup dateMasks.d01 := funext (forall_byte (by decide +kernel))

theorem date_fit_y0 : (fun c => c = 0x30 || crange 0x34 0x39 c : CharClass) = maskClass dateGroup dateMasks.y0 := funext (forall_byte (by decide +kernel))

theorem date_fit_y29 : crange 0x32 0x39 = maskClass dateGroup dateMasks.y29 := funext (forall_byte (by decide +kernel))

theorem date_fit : dateMasks.Fit dateGroup :=
  ⟨date_fit_digit, date_fit_pos, date_fit_letter, date_fit_d12, date_fit_d3, date_fit_d01, date_fit_y0, date_fit_y29⟩

end Mairix
