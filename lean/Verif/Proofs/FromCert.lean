import Verif.Model.NfaFiles
import Verif.Proofs.FromPositions
import Verif.Proofs.NfaScan
import Verif.Proofs.Bytes

/-!
# The certificate for fromcheck.nfa

The lists were computed by a program; that they are right is checked by the kernel.
-/

namespace Mairix
open Spec

/-- The states of fromcheck.nfa. -/
def fromStates0 : List IState := [
  ⟨[.eps 21, .cls 10 21, .eps 9, .eps 1, .cls 9 0], []⟩,
  ⟨[.cls 11 1, .cls 10 1, .cls 2 1, .cls 7 1, .cls 6 1, .cls 11 4, .cls 10 4, .cls 2 4, .cls 7 4, .cls 6 4, .cls 15 3, .cls 5 2], []⟩,
  ⟨[.cls 14 2, .cls 2 2, .cls 7 2, .cls 6 2, .cls 8 1], []⟩,
  ⟨[.cls 16 3, .cls 9 3, .cls 11 3, .cls 10 3, .cls 2 3, .cls 7 3, .cls 6 3, .cls 15 4], []⟩,
  ⟨[.cls 11 4, .cls 10 4, .cls 2 4, .cls 7 4, .cls 6 4, .cls 15 3, .eps 8, .cls 5 5], []⟩,
  ⟨[.cls 17 6, .cls 14 7, .cls 2 7, .cls 7 7, .cls 6 7], []⟩,
  ⟨[.cls 3 6, .cls 2 6, .cls 18 8], []⟩,
  ⟨[.cls 14 7, .cls 2 7, .cls 7 7, .cls 6 7, .cls 14 8, .cls 2 8, .cls 7 8, .cls 6 8], []⟩,
  ⟨[.eps 21], []⟩,
  ⟨[.cls 12 10], []⟩,
  ⟨[.eps 11], []⟩,
  ⟨[.cls 5 12, .cls 15 13, .cls 6 14, .cls 7 14, .cls 2 14, .cls 10 14, .cls 11 14, .cls 6 11, .cls 7 11, .cls 2 11, .cls 10 11, .cls 11 11], []⟩,
  ⟨[.cls 8 11, .cls 6 12, .cls 7 12, .cls 2 12, .cls 14 12], []⟩,
  ⟨[.cls 15 14, .cls 6 13, .cls 7 13, .cls 2 13, .cls 10 13, .cls 11 13, .cls 9 13, .cls 16 13], []⟩,
  ⟨[.cls 5 15, .eps 18, .cls 15 13, .cls 6 14, .cls 7 14, .cls 2 14, .cls 10 14, .cls 11 14], []⟩,
  ⟨[.cls 6 17, .cls 7 17, .cls 2 17, .cls 14 17, .cls 17 16], []⟩,
  ⟨[.cls 18 18, .cls 2 16, .cls 3 16], []⟩,
  ⟨[.cls 6 18, .cls 7 18, .cls 2 18, .cls 14 18, .cls 6 17, .cls 7 17, .cls 2 17, .cls 14 17], []⟩,
  ⟨[.eps 19], []⟩,
  ⟨[.cls 13 20], []⟩,
  ⟨[.eps 21], []⟩,
  ⟨[.eps 151, .eps 86, .eps 22], []⟩,
  ⟨[.cls 9 22, .cls 9 23], []⟩,
  ⟨[.cls 7 24], []⟩,
  ⟨[.cls 6 25], []⟩,
  ⟨[.cls 6 26], []⟩,
  ⟨[.cls 9 27], []⟩,
  ⟨[.cls 9 27, .cls 7 28], []⟩,
  ⟨[.cls 6 29], []⟩,
  ⟨[.cls 6 30], []⟩,
  ⟨[.cls 9 31], []⟩,
  ⟨[.cls 9 31, .cls 2 32, .cls 2 33], []⟩,
  ⟨[.cls 9 35], []⟩,
  ⟨[.cls 2 34], []⟩,
  ⟨[.cls 9 35], []⟩,
  ⟨[.cls 9 35, .cls 2 36, .cls 2 44], []⟩,
  ⟨[.cls 2 37], []⟩,
  ⟨[.cls 8 38], []⟩,
  ⟨[.cls 2 39], []⟩,
  ⟨[.cls 2 40], []⟩]

/-- The states of fromcheck.nfa. -/
def fromStates1 : List IState := [
  ⟨[.cls 8 41], []⟩,
  ⟨[.cls 2 42], []⟩,
  ⟨[.cls 2 43], []⟩,
  ⟨[.cls 9 49], []⟩,
  ⟨[.cls 2 45], []⟩,
  ⟨[.cls 8 46], []⟩,
  ⟨[.cls 2 47], []⟩,
  ⟨[.cls 2 48], []⟩,
  ⟨[.cls 9 49], []⟩,
  ⟨[.cls 9 49, .eps 79, .eps 51, .eps 55, .cls 2 58], []⟩,
  ⟨[.cls 9 79], []⟩,
  ⟨[.cls 10 52, .cls 7 53, .cls 7 52], []⟩,
  ⟨[.cls 2 53, .cls 2 52, .cls 7 53, .cls 6 53, .cls 7 52, .cls 6 52], []⟩,
  ⟨[.eps 50], []⟩,
  ⟨[.cls 9 74], []⟩,
  ⟨[.cls 10 56, .cls 7 57, .cls 7 56], []⟩,
  ⟨[.cls 2 57, .cls 2 56, .cls 7 57, .cls 6 57, .cls 7 56, .cls 6 56], []⟩,
  ⟨[.eps 54], []⟩,
  ⟨[.cls 2 59], []⟩,
  ⟨[.cls 2 60], []⟩,
  ⟨[.cls 2 61], []⟩,
  ⟨[.cls 9 61, .eps 62, .eps 66], []⟩,
  ⟨[.cls 10 63, .cls 7 64, .cls 7 63], []⟩,
  ⟨[.cls 2 64, .cls 2 63, .cls 7 64, .cls 6 64, .cls 7 63, .cls 6 63], []⟩,
  ⟨[.eps 73], []⟩,
  ⟨[.cls 9 69], []⟩,
  ⟨[.cls 10 67, .cls 7 68, .cls 7 67], []⟩,
  ⟨[.cls 2 68, .cls 2 67, .cls 7 68, .cls 6 68, .cls 7 67, .cls 6 67], []⟩,
  ⟨[.eps 65], []⟩,
  ⟨[.cls 9 69, .eps 70], []⟩,
  ⟨[.cls 10 71, .cls 7 72, .cls 7 71], []⟩,
  ⟨[.cls 2 72, .cls 2 71, .cls 7 72, .cls 6 72, .cls 7 71, .cls 6 71], []⟩,
  ⟨[.eps 73], []⟩,
  ⟨[.cls 9 73, .eps 84], []⟩,
  ⟨[.cls 9 74, .eps 76], []⟩,
  ⟨[.cls 9 79], []⟩,
  ⟨[.cls 10 77, .cls 7 78, .cls 7 77], []⟩,
  ⟨[.cls 2 78, .cls 2 77, .cls 7 78, .cls 6 78, .cls 7 77, .cls 6 77], []⟩,
  ⟨[.eps 75], []⟩,
  ⟨[.cls 9 79, .cls 2 80], []⟩]

/-- The states of fromcheck.nfa. -/
def fromStates2 : List IState := [
  ⟨[.cls 2 81], []⟩,
  ⟨[.cls 2 82], []⟩,
  ⟨[.cls 2 83], []⟩,
  ⟨[.cls 9 83, .eps 84], []⟩,
  ⟨[.eps 198], []⟩,
  ⟨[.cls 1 149], []⟩,
  ⟨[.cls 9 86, .cls 9 87], []⟩,
  ⟨[.cls 7 88], []⟩,
  ⟨[.cls 6 89], []⟩,
  ⟨[.cls 6 90], []⟩,
  ⟨[.cls 9 91], []⟩,
  ⟨[.cls 9 91, .cls 7 92], []⟩,
  ⟨[.cls 6 93], []⟩,
  ⟨[.cls 6 94], []⟩,
  ⟨[.cls 9 95], []⟩,
  ⟨[.cls 9 95, .cls 2 96, .cls 2 97], []⟩,
  ⟨[.cls 9 99], []⟩,
  ⟨[.cls 2 98], []⟩,
  ⟨[.cls 9 99], []⟩,
  ⟨[.cls 9 99, .cls 2 100, .cls 2 108], []⟩,
  ⟨[.cls 2 101], []⟩,
  ⟨[.cls 8 102], []⟩,
  ⟨[.cls 2 103], []⟩,
  ⟨[.cls 2 104], []⟩,
  ⟨[.cls 8 105], []⟩,
  ⟨[.cls 2 106], []⟩,
  ⟨[.cls 2 107], []⟩,
  ⟨[.cls 9 113], []⟩,
  ⟨[.cls 2 109], []⟩,
  ⟨[.cls 8 110], []⟩,
  ⟨[.cls 2 111], []⟩,
  ⟨[.cls 2 112], []⟩,
  ⟨[.cls 9 113], []⟩,
  ⟨[.cls 9 113, .eps 143, .eps 115, .eps 119, .cls 2 122], []⟩,
  ⟨[.cls 9 143], []⟩,
  ⟨[.cls 10 116, .cls 7 117, .cls 7 116], []⟩,
  ⟨[.cls 2 117, .cls 2 116, .cls 7 117, .cls 6 117, .cls 7 116, .cls 6 116], []⟩,
  ⟨[.eps 114], []⟩,
  ⟨[.cls 9 138], []⟩,
  ⟨[.cls 10 120, .cls 7 121, .cls 7 120], []⟩]

/-- The states of fromcheck.nfa. -/
def fromStates3 : List IState := [
  ⟨[.cls 2 121, .cls 2 120, .cls 7 121, .cls 6 121, .cls 7 120, .cls 6 120], []⟩,
  ⟨[.eps 118], []⟩,
  ⟨[.cls 2 123], []⟩,
  ⟨[.cls 2 124], []⟩,
  ⟨[.cls 2 125], []⟩,
  ⟨[.cls 9 125, .eps 126, .eps 130], []⟩,
  ⟨[.cls 10 127, .cls 7 128, .cls 7 127], []⟩,
  ⟨[.cls 2 128, .cls 2 127, .cls 7 128, .cls 6 128, .cls 7 127, .cls 6 127], []⟩,
  ⟨[.eps 137], []⟩,
  ⟨[.cls 9 133], []⟩,
  ⟨[.cls 10 131, .cls 7 132, .cls 7 131], []⟩,
  ⟨[.cls 2 132, .cls 2 131, .cls 7 132, .cls 6 132, .cls 7 131, .cls 6 131], []⟩,
  ⟨[.eps 129], []⟩,
  ⟨[.cls 9 133, .eps 134], []⟩,
  ⟨[.cls 10 135, .cls 7 136, .cls 7 135], []⟩,
  ⟨[.cls 2 136, .cls 2 135, .cls 7 136, .cls 6 136, .cls 7 135, .cls 6 135], []⟩,
  ⟨[.eps 137], []⟩,
  ⟨[.cls 9 137, .eps 148], []⟩,
  ⟨[.cls 9 138, .eps 140], []⟩,
  ⟨[.cls 9 143], []⟩,
  ⟨[.cls 10 141, .cls 7 142, .cls 7 141], []⟩,
  ⟨[.cls 2 142, .cls 2 141, .cls 7 142, .cls 6 142, .cls 7 141, .cls 6 141], []⟩,
  ⟨[.eps 139], []⟩,
  ⟨[.cls 9 143, .cls 2 144], []⟩,
  ⟨[.cls 2 145], []⟩,
  ⟨[.cls 2 146], []⟩,
  ⟨[.cls 2 147], []⟩,
  ⟨[.cls 9 147, .eps 148], []⟩,
  ⟨[.eps 85], []⟩,
  ⟨[.cls 0 150], []⟩,
  ⟨[], [bs "FROMCHECK_PASS"]⟩,
  ⟨[.cls 9 151, .cls 9 152], []⟩,
  ⟨[.cls 7 153], []⟩,
  ⟨[.cls 6 154], []⟩,
  ⟨[.cls 6 155], []⟩,
  ⟨[.cls 4 156], []⟩,
  ⟨[.cls 9 157], []⟩,
  ⟨[.cls 9 157, .cls 2 158, .cls 2 159], []⟩,
  ⟨[.cls 9 161], []⟩,
  ⟨[.cls 2 160], []⟩]

/-- The states of fromcheck.nfa. -/
def fromStates4 : List IState := [
  ⟨[.cls 9 161], []⟩,
  ⟨[.cls 9 161, .cls 7 162], []⟩,
  ⟨[.cls 6 163], []⟩,
  ⟨[.cls 6 164], []⟩,
  ⟨[.cls 9 165], []⟩,
  ⟨[.cls 2 166, .cls 2 169], []⟩,
  ⟨[.cls 2 167], []⟩,
  ⟨[.cls 2 168], []⟩,
  ⟨[.cls 2 170], []⟩,
  ⟨[.cls 2 170], []⟩,
  ⟨[.cls 9 170, .cls 2 171, .cls 2 179], []⟩,
  ⟨[.cls 2 172], []⟩,
  ⟨[.cls 8 173], []⟩,
  ⟨[.cls 2 174], []⟩,
  ⟨[.cls 2 175], []⟩,
  ⟨[.cls 8 176], []⟩,
  ⟨[.cls 2 177], []⟩,
  ⟨[.cls 2 178], []⟩,
  ⟨[.cls 9 184], []⟩,
  ⟨[.cls 2 180], []⟩,
  ⟨[.cls 8 181], []⟩,
  ⟨[.cls 2 182], []⟩,
  ⟨[.cls 2 183], []⟩,
  ⟨[.cls 9 184], []⟩,
  ⟨[.cls 9 184, .eps 196, .eps 185, .eps 189], []⟩,
  ⟨[.cls 10 186, .cls 7 187, .cls 7 186], []⟩,
  ⟨[.cls 2 187, .cls 2 186, .cls 7 187, .cls 6 187, .cls 7 186, .cls 6 186], []⟩,
  ⟨[.eps 196], []⟩,
  ⟨[.cls 9 192], []⟩,
  ⟨[.cls 10 190, .cls 7 191, .cls 7 190], []⟩,
  ⟨[.cls 2 191, .cls 2 190, .cls 7 191, .cls 6 191, .cls 7 190, .cls 6 190], []⟩,
  ⟨[.eps 188], []⟩,
  ⟨[.cls 9 192, .eps 193], []⟩,
  ⟨[.cls 10 194, .cls 7 195, .cls 7 194], []⟩,
  ⟨[.cls 2 195, .cls 2 194, .cls 7 195, .cls 6 195, .cls 7 194, .cls 6 194], []⟩,
  ⟨[.eps 196], []⟩,
  ⟨[.cls 9 196, .eps 197], []⟩,
  ⟨[.eps 198], []⟩,
  ⟨[.eps 216, .eps 200], []⟩,
  ⟨[.cls 0 215], []⟩]

/-- The states of fromcheck.nfa. -/
def fromStates5 : List IState := [
  ⟨[.cls 9 200, .cls 9 201], []⟩,
  ⟨[.cls 19 202], []⟩,
  ⟨[.cls 20 203], []⟩,
  ⟨[.cls 21 204], []⟩,
  ⟨[.cls 22 205], []⟩,
  ⟨[.cls 23 206], []⟩,
  ⟨[.cls 20 207], []⟩,
  ⟨[.cls 9 208], []⟩,
  ⟨[.cls 24 209], []⟩,
  ⟨[.cls 19 210], []⟩,
  ⟨[.cls 22 211], []⟩,
  ⟨[.cls 21 212], []⟩,
  ⟨[.cls 9 213], []⟩,
  ⟨[.cls 14 213, .cls 2 213, .cls 7 213, .cls 6 213, .eps 214], []⟩,
  ⟨[.eps 199], []⟩,
  ⟨[], [bs "FROMCHECK_PASS"]⟩,
  ⟨[], [bs "FROMCHECK_PASS"]⟩]

/-- The states of fromcheck.nfa. -/
def fromStates : List IState := fromStates0 ++ (fromStates1 ++ (fromStates2 ++ (fromStates3 ++ (fromStates4 ++ (fromStates5)))))

/-- fromcheck.nfa as it is read. -/
def fromAuto : IAuto := ⟨fromcheckClasses, fromStates, 0, [⟨[⟨bs "FROMCHECK_PASS", .tag (bs "FROMCHECK_PASS"), false⟩, ⟨bs "FROMCHECK_FAIL", .tag (bs "FROMCHECK_FAIL"), false⟩], some (bs "FROMCHECK_FAIL")⟩], [], [0]⟩

/-- The groups of characters. -/
def fromGroups : Grouping := ⟨26,
  [0, 0, 0, 0, 0, 0, 0, 0, 0, 1, 2, 0, 0, 3, 0, 0, 0, 0, 0, 0, 0, 0, 0, 0, 0, 0, 0, 0, 0, 0, 0, 0, 1, 4, 5, 4, 4, 4, 4, 4, 0, 0, 4, 6, 7, 8, 9, 4, 10, 10, 10, 10, 10, 10, 10, 10, 10, 10, 11, 0, 12, 4, 13, 4, 14, 15, 15, 15, 15, 15, 15, 15, 15, 15, 15, 15, 15, 15, 15, 15, 15, 15, 15, 15, 15, 15, 15, 15, 15, 15, 15, 16, 0, 17, 4, 18, 4, 19, 19, 19, 19, 20, 21, 19, 19, 19, 19, 19, 19, 22, 19, 23, 19, 19, 24, 19, 25, 19, 19, 19, 19, 19, 19, 4, 4, 4, 4, 0, 0, 0, 0, 0, 0, 0, 0, 0, 0, 0, 0, 0, 0, 0, 0, 0, 0, 0, 0, 0, 0, 0, 0, 0, 0, 0, 0, 0, 0, 0, 0, 0, 0, 0, 0, 0, 0, 0, 0, 0, 0, 0, 0, 0, 0, 0, 0, 0, 0, 0, 0, 0, 0, 0, 0, 0, 0, 0, 0, 0, 0, 0, 0, 0, 0, 0, 0, 0, 0, 0, 0, 0, 0, 0, 0, 0, 0, 0, 0, 0, 0, 0, 0, 0, 0, 0, 0, 0, 0, 0, 0, 0, 0, 0, 0, 0, 0, 0, 0, 0, 0, 0, 0, 0, 0, 0, 0, 0, 0, 0, 0, 0, 0, 0, 0, 0, 0, 0, 0, 0, 0, 0, 0, 0, 0, 0, 0, 0],
  [4, 8, 1024, 512, 128, 16384, 66584576, 32768, 2048, 2, 320, 262672, 4096, 8192, 262912, 32, 30720, 65536, 131072, 16777216, 1048576, 4194304, 8388608, 33554432, 2097152]⟩

/-- A character of each group. -/
def fromReps : List Nat := [0, 9, 10, 13, 33, 34, 43, 44, 45, 46, 48, 58, 60, 62, 64, 65, 91, 93, 95, 97, 101, 102, 109, 111, 114, 116]

/-- What is reached without input. -/
def fromClosure0 : Tree (Nat × Nat) :=
  .node 16 (.node 8 (.node 4 (.node 2 (.node 1 (.leaf (2854495385411919762193943191354326539952980483, 2)) (.leaf (2, 0))) (.node 1 (.leaf (4, 0)) (.leaf (8, 0)))) (.node 2 (.node 1 (.leaf (2854495385411919762193943191354326539952980240, 3)) (.leaf (32, 0))) (.node 1 (.leaf (64, 0)) (.leaf (128, 0))))) (.node 4 (.node 2 (.node 1 (.leaf (2854495385411919762193943191354326539952980224, 2)) (.leaf (512, 0))) (.node 1 (.leaf (3072, 1)) (.leaf (2048, 0)))) (.node 2 (.node 1 (.leaf (4096, 0)) (.leaf (8192, 0))) (.node 1 (.leaf (802816, 2)) (.leaf (32768, 0)))))) (.node 8 (.node 4 (.node 2 (.node 1 (.leaf (65536, 0)) (.leaf (131072, 0))) (.node 1 (.leaf (786432, 1)) (.leaf (524288, 0)))) (.node 2 (.node 1 (.leaf (2854495385411919762193943191354326539954028544, 2)) (.leaf (2854495385411919762193943191354326539952979968, 1))) (.node 1 (.leaf (4194304, 0)) (.leaf (8388608, 0))))) (.node 4 (.node 2 (.node 1 (.leaf (16777216, 0)) (.leaf (33554432, 0))) (.node 1 (.leaf (67108864, 0)) (.leaf (134217728, 0)))) (.node 2 (.node 1 (.leaf (268435456, 0)) (.leaf (536870912, 0))) (.node 1 (.leaf (1073741824, 0)) (.leaf (2147483648, 0))))))

/-- What is reached without input. -/
def fromClosure1 : Tree (Nat × Nat) :=
  .node 16 (.node 8 (.node 4 (.node 2 (.node 1 (.leaf (4294967296, 0)) (.leaf (8589934592, 0))) (.node 1 (.leaf (17179869184, 0)) (.leaf (34359738368, 0)))) (.node 2 (.node 1 (.leaf (68719476736, 0)) (.leaf (137438953472, 0))) (.node 1 (.leaf (274877906944, 0)) (.leaf (549755813888, 0))))) (.node 4 (.node 2 (.node 1 (.leaf (1099511627776, 0)) (.leaf (2199023255552, 0))) (.node 1 (.leaf (4398046511104, 0)) (.leaf (8796093022208, 0)))) (.node 2 (.node 1 (.leaf (17592186044416, 0)) (.leaf (35184372088832, 0))) (.node 1 (.leaf (70368744177664, 0)) (.leaf (140737488355328, 0)))))) (.node 8 (.node 4 (.node 2 (.node 1 (.leaf (281474976710656, 0)) (.leaf (604462948650861373423616, 1))) (.node 1 (.leaf (1125899906842624, 0)) (.leaf (2251799813685248, 0)))) (.node 2 (.node 1 (.leaf (4503599627370496, 0)) (.leaf (10133099161583616, 1))) (.node 1 (.leaf (18014398509481984, 0)) (.leaf (36028797018963968, 0))))) (.node 4 (.node 2 (.node 1 (.leaf (72057594037927936, 0)) (.leaf (162129586585337856, 1))) (.node 1 (.leaf (288230376151711744, 0)) (.leaf (576460752303423488, 0)))) (.node 2 (.node 1 (.leaf (1152921504606846976, 0)) (.leaf (80704505322479288320, 1))) (.node 1 (.leaf (4611686018427387904, 0)) (.leaf (9223372036854775808, 0))))))

/-- What is reached without input. -/
def fromClosure2 : Tree (Nat × Nat) :=
  .node 16 (.node 8 (.node 4 (.node 2 (.node 1 (.leaf (105314300341112510435762455136285858772167600430584883625150382080, 4)) (.leaf (36893488147419103232, 0))) (.node 1 (.leaf (73786976294838206464, 0)) (.leaf (147573952589676412928, 0)))) (.node 2 (.node 1 (.leaf (332041393326771929088, 1)) (.leaf (1770887431076116955136, 1))) (.node 1 (.leaf (1180591620717411303424, 0)) (.leaf (2361183241434822606848, 0))))) (.node 4 (.node 2 (.node 1 (.leaf (105314300341112510435762455136285858772167605134504622421086044160, 4)) (.leaf (105314300341112510435762455136285858772167600412138139551440830464, 3))) (.node 1 (.leaf (94447329657392904273920, 1)) (.leaf (37778931862957161709568, 0)))) (.node 2 (.node 1 (.leaf (75557863725914323419136, 0)) (.leaf (151115727451828646838272, 0))) (.node 1 (.leaf (340010386766614455386112, 1)) (.leaf (604462909807314587353088, 0)))))) (.node 8 (.node 4 (.node 2 (.node 1 (.leaf (1208925819614629174706176, 0)) (.leaf (2417851639229258349412352, 0))) (.node 1 (.leaf (4835703278458516698824704, 0)) (.leaf (105314300341112510435762455136285858772177262373962090845548052480, 3)))) (.node 2 (.node 1 (.leaf (105314300341112510435762455136285858772167590967405173812150403072, 2)) (.leaf (38685626227668133590597632, 0))) (.node 1 (.leaf (77371252455336267181195264, 0)) (.leaf (154742504910672534362390528, 0))))) (.node 4 (.node 2 (.node 1 (.leaf (309485009821345068724781056, 0)) (.leaf (618970019642690137449562112, 0))) (.node 1 (.leaf (1237940039285380274899124224, 0)) (.leaf (2475880078570760549798248448, 0)))) (.node 2 (.node 1 (.leaf (4951760157141521099596496896, 0)) (.leaf (9903520314283042199192993792, 0))) (.node 1 (.leaf (19807040628566084398385987584, 0)) (.leaf (39614081257132168796771975168, 0))))))

/-- What is reached without input. -/
def fromClosure3 : Tree (Nat × Nat) :=
  .node 16 (.node 8 (.node 4 (.node 2 (.node 1 (.leaf (79228162514264337593543950336, 0)) (.leaf (158456325028528675187087900672, 0))) (.node 1 (.leaf (316912650057057350374175801344, 0)) (.leaf (633825300114114700748351602688, 0)))) (.node 2 (.node 1 (.leaf (1267650600228229401496703205376, 0)) (.leaf (2535301200456458802993406410752, 0))) (.node 1 (.leaf (5070602400912917605986812821504, 0)) (.leaf (10141204801825835211973625643008, 0))))) (.node 4 (.node 2 (.node 1 (.leaf (20282409603651670423947251286016, 0)) (.leaf (40564819207303340847894502572032, 0))) (.node 1 (.leaf (81129638414606681695789005144064, 0)) (.leaf (162259276829213363391578010288128, 0)))) (.node 2 (.node 1 (.leaf (324518553658426726783156020576256, 0)) (.leaf (649037107316853453566312041152512, 0))) (.node 1 (.leaf (1298074214633706907132624082305024, 0)) (.leaf (2596148429267413814265248164610048, 0)))))) (.node 8 (.node 4 (.node 2 (.node 1 (.leaf (5192296858534827628530496329220096, 0)) (.leaf (11150373315802278048574071873532674185363456, 1))) (.node 1 (.leaf (20769187434139310514121985316880384, 0)) (.leaf (41538374868278621028243970633760768, 0)))) (.node 2 (.node 1 (.leaf (83076749736557242056487941267521536, 0)) (.leaf (186922686907253794627097867851923456, 1))) (.node 1 (.leaf (332306998946228968225951765070086144, 0)) (.leaf (664613997892457936451903530140172288, 0))))) (.node 4 (.node 2 (.node 1 (.leaf (1329227995784915872903807060280344576, 0)) (.leaf (2990762990516060714033565885630775296, 1))) (.node 1 (.leaf (5316911983139663491615228241121378304, 0)) (.leaf (10633823966279326983230456482242756608, 0)))) (.node 2 (.node 1 (.leaf (21267647932558653966460912964485513216, 0)) (.leaf (1488735355279105777652263907513985925120, 1))) (.node 1 (.leaf (85070591730234615865843651857942052864, 0)) (.leaf (170141183460469231731687303715884105728, 0))))))

/-- What is reached without input. -/
def fromClosure4 : Tree (Nat × Nat) :=
  .node 16 (.node 8 (.node 4 (.node 2 (.node 1 (.leaf (356986488030720411735013829763654414778761216, 3)) (.leaf (680564733841876926926749214863536422912, 0))) (.node 1 (.leaf (1361129467683753853853498429727072845824, 0)) (.leaf (2722258935367507707706996859454145691648, 0)))) (.node 2 (.node 1 (.leaf (6125082604576892342340742933771827806208, 1)) (.leaf (32667107224410092492483962313449748299776, 1))) (.node 1 (.leaf (21778071482940061661655974875633165533184, 0)) (.leaf (43556142965880123323311949751266331066368, 0))))) (.node 4 (.node 2 (.node 1 (.leaf (357073260034285251043196990288549515672682496, 3)) (.leaf (356986147748353490796550366389046983010549760, 2))) (.node 1 (.leaf (1742245718635204932932477990050653242654720, 1)) (.leaf (696898287454081973172991196020261297061888, 0)))) (.node 2 (.node 1 (.leaf (1393796574908163946345982392040522594123776, 0)) (.leaf (2787593149816327892691964784081045188247552, 0))) (.node 1 (.leaf (6272084587086737758556920764182351673556992, 1)) (.leaf (11150372599265311570767859136324180752990208, 0)))))) (.node 8 (.node 4 (.node 2 (.node 1 (.leaf (22300745198530623141535718272648361505980416, 0)) (.leaf (44601490397061246283071436545296723011960832, 0))) (.node 1 (.leaf (89202980794122492566142873090593446023921664, 0)) (.leaf (535217884764734955435542864771228809734127616, 2)))) (.node 2 (.node 1 (.leaf (356811923176489970303257118590041917686284288, 1)) (.leaf (713623846352979940529142984724747568191373312, 0))) (.node 1 (.leaf (1427247692705959881058285969449495136382746624, 0)) (.leaf (2854495385411919762116571938898990272765493248, 0))))) (.node 4 (.node 2 (.node 1 (.leaf (5708990770823839524233143877797980545530986496, 0)) (.leaf (11417981541647679048466287755595961091061972992, 0))) (.node 1 (.leaf (22835963083295358096932575511191922182123945984, 0)) (.leaf (45671926166590716193865151022383844364247891968, 0)))) (.node 2 (.node 1 (.leaf (91343852333181432387730302044767688728495783936, 0)) (.leaf (182687704666362864775460604089535377456991567872, 0))) (.node 1 (.leaf (365375409332725729550921208179070754913983135744, 0)) (.leaf (730750818665451459101842416358141509827966271488, 0))))))

/-- What is reached without input. -/
def fromClosure5 : Tree (Nat × Nat) :=
  .node 16 (.node 8 (.node 4 (.node 2 (.node 1 (.leaf (1461501637330902918203684832716283019655932542976, 0)) (.leaf (2923003274661805836407369665432566039311865085952, 0))) (.node 1 (.leaf (5846006549323611672814739330865132078623730171904, 0)) (.leaf (11692013098647223345629478661730264157247460343808, 0)))) (.node 2 (.node 1 (.leaf (23384026197294446691258957323460528314494920687616, 0)) (.leaf (46768052394588893382517914646921056628989841375232, 0))) (.node 1 (.leaf (93536104789177786765035829293842113257979682750464, 0)) (.leaf (187072209578355573530071658587684226515959365500928, 0))))) (.node 4 (.node 2 (.node 1 (.leaf (374144419156711147060143317175368453031918731001856, 0)) (.leaf (748288838313422294120286634350736906063837462003712, 0))) (.node 1 (.leaf (1496577676626844588240573268701473812127674924007424, 0)) (.leaf (2993155353253689176481146537402947624255349848014848, 0)))) (.node 2 (.node 1 (.leaf (5986310706507378352962293074805895248510699696029696, 0)) (.leaf (11972621413014756705924586149611790497021399392059392, 0))) (.node 1 (.leaf (23945242826029513411849172299223580994042798784118784, 0)) (.leaf (47890485652059026823698344598447161988085597568237568, 0)))))) (.node 8 (.node 4 (.node 2 (.node 1 (.leaf (95780971304118053647396689196894323976171195136475136, 0)) (.leaf (191561942608236107294793378393788647952342390272950272, 0))) (.node 1 (.leaf (383123885216472214589586756787577295904684780545900544, 0)) (.leaf (766247770432944429179173513575154591809369561091801088, 0)))) (.node 2 (.node 1 (.leaf (1532495540865888858358347027150309183618739122183602176, 0)) (.leaf (3064991081731777716716694054300618367237478244367204352, 0))) (.node 1 (.leaf (6129982163463555433433388108601236734474956488734408704, 0)) (.leaf (12259964326927110866866776217202473468949912977468817408, 0))))) (.node 4 (.node 2 (.node 1 (.leaf (105314602500193311881336879934852507944309363893846582441828941824, 4)) (.leaf (49039857307708443467467104868809893875799651909875269632, 0))) (.node 1 (.leaf (98079714615416886934934209737619787751599303819750539264, 0)) (.leaf (105314601838155238227272893124046592215375796570551281658512801792, 4)))) (.node 2 (.node 1 (.leaf (392318858461667547739736838950479151006397215279002157056, 0)) (.leaf (784637716923335095479473677900958302012794430558004314112, 0))) (.node 1 (.leaf (1569275433846670190958947355801916604025588861116008628224, 0)) (.leaf (3530869726155007929657631550554312359057574937511019413504, 1))))))

/-- What is reached without input. -/
def fromClosure6 : Tree (Nat × Nat) :=
  .node 12 (.node 6 (.node 3 (.node 1 (.leaf (18831305206160042291507368269622999248307066333392103538688, 1)) (.node 1 (.leaf (12554203470773361527671578846415332832204710888928069025792, 0)) (.leaf (25108406941546723055343157692830665664409421777856138051584, 0)))) (.node 1 (.leaf (105314651858809692089885229940493558401467549886196229731287826432, 4)) (.node 1 (.leaf (105314601641995808996439119254178172740136221067352674019011723264, 3)) (.leaf (105314501208368042809546897881547401417473563429665562594459516928, 2))))) (.node 3 (.node 1 (.leaf (105314300341112510435762455136285858772148248154291339745355104256, 1)) (.node 1 (.leaf (803469022129495137770981046170581301261101496891396417650688, 0)) (.leaf (1606938044258990275541962092341162602522202993782792835301376, 0)))) (.node 1 (.leaf (3213876088517980551083924184682325205044405987565585670602752, 0)) (.node 1 (.leaf (6427752177035961102167848369364650410088811975131171341205504, 0)) (.leaf (12855504354071922204335696738729300820177623950262342682411008, 0)))))) (.node 6 (.node 3 (.node 1 (.leaf (25711008708143844408671393477458601640355247900524685364822016, 0)) (.node 1 (.leaf (51422017416287688817342786954917203280710495801049370729644032, 0)) (.leaf (102844034832575377634685573909834406561420991602098741459288064, 0)))) (.node 1 (.leaf (205688069665150755269371147819668813122841983204197482918576128, 0)) (.node 1 (.leaf (411376139330301510538742295639337626245683966408394965837152256, 0)) (.leaf (822752278660603021077484591278675252491367932816789931674304512, 0))))) (.node 3 (.node 1 (.leaf (1645504557321206042154969182557350504982735865633579863348609024, 0)) (.node 1 (.leaf (3291009114642412084309938365114701009965471731267159726697218048, 0)) (.leaf (6582018229284824168619876730229402019930943462534319453394436096, 0)))) (.node 2 (.node 1 (.leaf (39492912844731074506857031362422582700886921876702808116784267264, 2)) (.leaf (26328876386161426169617277901963778661025034951634169209995395072, 1))) (.node 1 (.leaf (52656145834278593348959013841835216159447547700274555627155488768, 0)) (.leaf (105312291668557186697918027683670432318895095400549111254310977536, 0))))))

/-- What is reached without input. -/
def fromClosure : Tree (Nat × Nat) := (.node 96 (.node 32 fromClosure0 (.node 32 fromClosure1 fromClosure2)) (.node 64 (.node 32 fromClosure3 fromClosure4) (.node 32 fromClosure5 fromClosure6)))

/-- The transitions of the states. -/
def fromRows0 : List (List (Nat × Nat)) := [
  [(320, 2854495385411919762193943191354326539952979968), (2, 2854495385411919762193943191354326539952980483)],
  [(262672, 2), (320, 2), (1024, 2), (32768, 2), (66584576, 2), (262672, 2854495385411919762193943191354326539952980240), (320, 2854495385411919762193943191354326539952980240), (1024, 2854495385411919762193943191354326539952980240), (32768, 2854495385411919762193943191354326539952980240), (66584576, 2854495385411919762193943191354326539952980240), (32, 8), (16384, 4)],
  [(262912, 4), (1024, 4), (32768, 4), (66584576, 4), (2048, 2)],
  [(30720, 8), (2, 8), (262672, 8), (320, 8), (1024, 8), (32768, 8), (66584576, 8), (32, 2854495385411919762193943191354326539952980240)],
  [(262672, 2854495385411919762193943191354326539952980240), (320, 2854495385411919762193943191354326539952980240), (1024, 2854495385411919762193943191354326539952980240), (32768, 2854495385411919762193943191354326539952980240), (66584576, 2854495385411919762193943191354326539952980240), (32, 8), (16384, 32)],
  [(65536, 64), (262912, 128), (1024, 128), (32768, 128), (66584576, 128)],
  [(512, 64), (1024, 64), (131072, 2854495385411919762193943191354326539952980224)],
  [(262912, 128), (1024, 128), (32768, 128), (66584576, 128), (262912, 2854495385411919762193943191354326539952980224), (1024, 2854495385411919762193943191354326539952980224), (32768, 2854495385411919762193943191354326539952980224), (66584576, 2854495385411919762193943191354326539952980224)],
  [],
  [(4096, 3072)],
  [],
  [(16384, 4096), (32, 8192), (66584576, 802816), (32768, 802816), (1024, 802816), (320, 802816), (262672, 802816), (66584576, 2048), (32768, 2048), (1024, 2048), (320, 2048), (262672, 2048)],
  [(2048, 2048), (66584576, 4096), (32768, 4096), (1024, 4096), (262912, 4096)],
  [(32, 802816), (66584576, 8192), (32768, 8192), (1024, 8192), (320, 8192), (262672, 8192), (2, 8192), (30720, 8192)],
  [(16384, 32768), (32, 8192), (66584576, 802816), (32768, 802816), (1024, 802816), (320, 802816), (262672, 802816)],
  [(66584576, 131072), (32768, 131072), (1024, 131072), (262912, 131072), (65536, 65536)],
  [(131072, 786432), (1024, 65536), (512, 65536)],
  [(66584576, 786432), (32768, 786432), (1024, 786432), (262912, 786432), (66584576, 131072), (32768, 131072), (1024, 131072), (262912, 131072)],
  [],
  [(8192, 2854495385411919762193943191354326539954028544)],
  [],
  [],
  [(2, 4194304), (2, 8388608)],
  [(32768, 16777216)],
  [(66584576, 33554432)],
  [(66584576, 67108864)],
  [(2, 134217728)],
  [(2, 134217728), (32768, 268435456)],
  [(66584576, 536870912)],
  [(66584576, 1073741824)],
  [(2, 2147483648)],
  [(2, 2147483648), (1024, 4294967296), (1024, 8589934592)],
  [(2, 34359738368)],
  [(1024, 17179869184)],
  [(2, 34359738368)],
  [(2, 34359738368), (1024, 68719476736), (1024, 17592186044416)],
  [(1024, 137438953472)],
  [(2048, 274877906944)],
  [(1024, 549755813888)],
  [(1024, 1099511627776)]]

/-- The transitions of the states. -/
def fromRows1 : List (List (Nat × Nat)) := [
  [(2048, 2199023255552)],
  [(1024, 4398046511104)],
  [(1024, 8796093022208)],
  [(2, 604462948650861373423616)],
  [(1024, 35184372088832)],
  [(2048, 70368744177664)],
  [(1024, 140737488355328)],
  [(1024, 281474976710656)],
  [(2, 604462948650861373423616)],
  [(2, 604462948650861373423616), (1024, 288230376151711744)],
  [(2, 604462909807314587353088)],
  [(320, 4503599627370496), (32768, 10133099161583616), (32768, 4503599627370496)],
  [(1024, 10133099161583616), (1024, 4503599627370496), (32768, 10133099161583616), (66584576, 10133099161583616), (32768, 4503599627370496), (66584576, 4503599627370496)],
  [],
  [(2, 94447329657392904273920)],
  [(320, 72057594037927936), (32768, 162129586585337856), (32768, 72057594037927936)],
  [(1024, 162129586585337856), (1024, 72057594037927936), (32768, 162129586585337856), (66584576, 162129586585337856), (32768, 72057594037927936), (66584576, 72057594037927936)],
  [],
  [(1024, 576460752303423488)],
  [(1024, 1152921504606846976)],
  [(1024, 80704505322479288320)],
  [(2, 80704505322479288320)],
  [(320, 9223372036854775808), (32768, 105314300341112510435762455136285858772167600430584883625150382080), (32768, 9223372036854775808)],
  [(1024, 105314300341112510435762455136285858772167600430584883625150382080), (1024, 9223372036854775808), (32768, 105314300341112510435762455136285858772167600430584883625150382080), (66584576, 105314300341112510435762455136285858772167600430584883625150382080), (32768, 9223372036854775808), (66584576, 9223372036854775808)],
  [],
  [(2, 1770887431076116955136)],
  [(320, 147573952589676412928), (32768, 332041393326771929088), (32768, 147573952589676412928)],
  [(1024, 332041393326771929088), (1024, 147573952589676412928), (32768, 332041393326771929088), (66584576, 332041393326771929088), (32768, 147573952589676412928), (66584576, 147573952589676412928)],
  [],
  [(2, 1770887431076116955136)],
  [(320, 2361183241434822606848), (32768, 105314300341112510435762455136285858772167605134504622421086044160), (32768, 2361183241434822606848)],
  [(1024, 105314300341112510435762455136285858772167605134504622421086044160), (1024, 2361183241434822606848), (32768, 105314300341112510435762455136285858772167605134504622421086044160), (66584576, 105314300341112510435762455136285858772167605134504622421086044160), (32768, 2361183241434822606848), (66584576, 2361183241434822606848)],
  [],
  [(2, 105314300341112510435762455136285858772167600412138139551440830464)],
  [(2, 94447329657392904273920)],
  [(2, 604462909807314587353088)],
  [(320, 151115727451828646838272), (32768, 340010386766614455386112), (32768, 151115727451828646838272)],
  [(1024, 340010386766614455386112), (1024, 151115727451828646838272), (32768, 340010386766614455386112), (66584576, 340010386766614455386112), (32768, 151115727451828646838272), (66584576, 151115727451828646838272)],
  [],
  [(2, 604462909807314587353088), (1024, 1208925819614629174706176)]]

/-- The transitions of the states. -/
def fromRows2 : List (List (Nat × Nat)) := [
  [(1024, 2417851639229258349412352)],
  [(1024, 4835703278458516698824704)],
  [(1024, 105314300341112510435762455136285858772177262373962090845548052480)],
  [(2, 105314300341112510435762455136285858772177262373962090845548052480)],
  [],
  [(8, 713623846352979940529142984724747568191373312)],
  [(2, 77371252455336267181195264), (2, 154742504910672534362390528)],
  [(32768, 309485009821345068724781056)],
  [(66584576, 618970019642690137449562112)],
  [(66584576, 1237940039285380274899124224)],
  [(2, 2475880078570760549798248448)],
  [(2, 2475880078570760549798248448), (32768, 4951760157141521099596496896)],
  [(66584576, 9903520314283042199192993792)],
  [(66584576, 19807040628566084398385987584)],
  [(2, 39614081257132168796771975168)],
  [(2, 39614081257132168796771975168), (1024, 79228162514264337593543950336), (1024, 158456325028528675187087900672)],
  [(2, 633825300114114700748351602688)],
  [(1024, 316912650057057350374175801344)],
  [(2, 633825300114114700748351602688)],
  [(2, 633825300114114700748351602688), (1024, 1267650600228229401496703205376), (1024, 324518553658426726783156020576256)],
  [(1024, 2535301200456458802993406410752)],
  [(2048, 5070602400912917605986812821504)],
  [(1024, 10141204801825835211973625643008)],
  [(1024, 20282409603651670423947251286016)],
  [(2048, 40564819207303340847894502572032)],
  [(1024, 81129638414606681695789005144064)],
  [(1024, 162259276829213363391578010288128)],
  [(2, 11150373315802278048574071873532674185363456)],
  [(1024, 649037107316853453566312041152512)],
  [(2048, 1298074214633706907132624082305024)],
  [(1024, 2596148429267413814265248164610048)],
  [(1024, 5192296858534827628530496329220096)],
  [(2, 11150373315802278048574071873532674185363456)],
  [(2, 11150373315802278048574071873532674185363456), (1024, 5316911983139663491615228241121378304)],
  [(2, 11150372599265311570767859136324180752990208)],
  [(320, 83076749736557242056487941267521536), (32768, 186922686907253794627097867851923456), (32768, 83076749736557242056487941267521536)],
  [(1024, 186922686907253794627097867851923456), (1024, 83076749736557242056487941267521536), (32768, 186922686907253794627097867851923456), (66584576, 186922686907253794627097867851923456), (32768, 83076749736557242056487941267521536), (66584576, 83076749736557242056487941267521536)],
  [],
  [(2, 1742245718635204932932477990050653242654720)],
  [(320, 1329227995784915872903807060280344576), (32768, 2990762990516060714033565885630775296), (32768, 1329227995784915872903807060280344576)]]

/-- The transitions of the states. -/
def fromRows3 : List (List (Nat × Nat)) := [
  [(1024, 2990762990516060714033565885630775296), (1024, 1329227995784915872903807060280344576), (32768, 2990762990516060714033565885630775296), (66584576, 2990762990516060714033565885630775296), (32768, 1329227995784915872903807060280344576), (66584576, 1329227995784915872903807060280344576)],
  [],
  [(1024, 10633823966279326983230456482242756608)],
  [(1024, 21267647932558653966460912964485513216)],
  [(1024, 1488735355279105777652263907513985925120)],
  [(2, 1488735355279105777652263907513985925120)],
  [(320, 170141183460469231731687303715884105728), (32768, 356986488030720411735013829763654414778761216), (32768, 170141183460469231731687303715884105728)],
  [(1024, 356986488030720411735013829763654414778761216), (1024, 170141183460469231731687303715884105728), (32768, 356986488030720411735013829763654414778761216), (66584576, 356986488030720411735013829763654414778761216), (32768, 170141183460469231731687303715884105728), (66584576, 170141183460469231731687303715884105728)],
  [],
  [(2, 32667107224410092492483962313449748299776)],
  [(320, 2722258935367507707706996859454145691648), (32768, 6125082604576892342340742933771827806208), (32768, 2722258935367507707706996859454145691648)],
  [(1024, 6125082604576892342340742933771827806208), (1024, 2722258935367507707706996859454145691648), (32768, 6125082604576892342340742933771827806208), (66584576, 6125082604576892342340742933771827806208), (32768, 2722258935367507707706996859454145691648), (66584576, 2722258935367507707706996859454145691648)],
  [],
  [(2, 32667107224410092492483962313449748299776)],
  [(320, 43556142965880123323311949751266331066368), (32768, 357073260034285251043196990288549515672682496), (32768, 43556142965880123323311949751266331066368)],
  [(1024, 357073260034285251043196990288549515672682496), (1024, 43556142965880123323311949751266331066368), (32768, 357073260034285251043196990288549515672682496), (66584576, 357073260034285251043196990288549515672682496), (32768, 43556142965880123323311949751266331066368), (66584576, 43556142965880123323311949751266331066368)],
  [],
  [(2, 356986147748353490796550366389046983010549760)],
  [(2, 1742245718635204932932477990050653242654720)],
  [(2, 11150372599265311570767859136324180752990208)],
  [(320, 2787593149816327892691964784081045188247552), (32768, 6272084587086737758556920764182351673556992), (32768, 2787593149816327892691964784081045188247552)],
  [(1024, 6272084587086737758556920764182351673556992), (1024, 2787593149816327892691964784081045188247552), (32768, 6272084587086737758556920764182351673556992), (66584576, 6272084587086737758556920764182351673556992), (32768, 2787593149816327892691964784081045188247552), (66584576, 2787593149816327892691964784081045188247552)],
  [],
  [(2, 11150372599265311570767859136324180752990208), (1024, 22300745198530623141535718272648361505980416)],
  [(1024, 44601490397061246283071436545296723011960832)],
  [(1024, 89202980794122492566142873090593446023921664)],
  [(1024, 535217884764734955435542864771228809734127616)],
  [(2, 535217884764734955435542864771228809734127616)],
  [],
  [(4, 1427247692705959881058285969449495136382746624)],
  [],
  [(2, 2854495385411919762116571938898990272765493248), (2, 5708990770823839524233143877797980545530986496)],
  [(32768, 11417981541647679048466287755595961091061972992)],
  [(66584576, 22835963083295358096932575511191922182123945984)],
  [(66584576, 45671926166590716193865151022383844364247891968)],
  [(128, 91343852333181432387730302044767688728495783936)],
  [(2, 182687704666362864775460604089535377456991567872)],
  [(2, 182687704666362864775460604089535377456991567872), (1024, 365375409332725729550921208179070754913983135744), (1024, 730750818665451459101842416358141509827966271488)],
  [(2, 2923003274661805836407369665432566039311865085952)],
  [(1024, 1461501637330902918203684832716283019655932542976)]]

/-- The transitions of the states. -/
def fromRows4 : List (List (Nat × Nat)) := [
  [(2, 2923003274661805836407369665432566039311865085952)],
  [(2, 2923003274661805836407369665432566039311865085952), (32768, 5846006549323611672814739330865132078623730171904)],
  [(66584576, 11692013098647223345629478661730264157247460343808)],
  [(66584576, 23384026197294446691258957323460528314494920687616)],
  [(2, 46768052394588893382517914646921056628989841375232)],
  [(1024, 93536104789177786765035829293842113257979682750464), (1024, 748288838313422294120286634350736906063837462003712)],
  [(1024, 187072209578355573530071658587684226515959365500928)],
  [(1024, 374144419156711147060143317175368453031918731001856)],
  [(1024, 1496577676626844588240573268701473812127674924007424)],
  [(1024, 1496577676626844588240573268701473812127674924007424)],
  [(2, 1496577676626844588240573268701473812127674924007424), (1024, 2993155353253689176481146537402947624255349848014848), (1024, 766247770432944429179173513575154591809369561091801088)],
  [(1024, 5986310706507378352962293074805895248510699696029696)],
  [(2048, 11972621413014756705924586149611790497021399392059392)],
  [(1024, 23945242826029513411849172299223580994042798784118784)],
  [(1024, 47890485652059026823698344598447161988085597568237568)],
  [(2048, 95780971304118053647396689196894323976171195136475136)],
  [(1024, 191561942608236107294793378393788647952342390272950272)],
  [(1024, 383123885216472214589586756787577295904684780545900544)],
  [(2, 105314602500193311881336879934852507944309363893846582441828941824)],
  [(1024, 1532495540865888858358347027150309183618739122183602176)],
  [(2048, 3064991081731777716716694054300618367237478244367204352)],
  [(1024, 6129982163463555433433388108601236734474956488734408704)],
  [(1024, 12259964326927110866866776217202473468949912977468817408)],
  [(2, 105314602500193311881336879934852507944309363893846582441828941824)],
  [(2, 105314602500193311881336879934852507944309363893846582441828941824)],
  [(320, 98079714615416886934934209737619787751599303819750539264), (32768, 105314601838155238227272893124046592215375796570551281658512801792), (32768, 98079714615416886934934209737619787751599303819750539264)],
  [(1024, 105314601838155238227272893124046592215375796570551281658512801792), (1024, 98079714615416886934934209737619787751599303819750539264), (32768, 105314601838155238227272893124046592215375796570551281658512801792), (66584576, 105314601838155238227272893124046592215375796570551281658512801792), (32768, 98079714615416886934934209737619787751599303819750539264), (66584576, 98079714615416886934934209737619787751599303819750539264)],
  [],
  [(2, 18831305206160042291507368269622999248307066333392103538688)],
  [(320, 1569275433846670190958947355801916604025588861116008628224), (32768, 3530869726155007929657631550554312359057574937511019413504), (32768, 1569275433846670190958947355801916604025588861116008628224)],
  [(1024, 3530869726155007929657631550554312359057574937511019413504), (1024, 1569275433846670190958947355801916604025588861116008628224), (32768, 3530869726155007929657631550554312359057574937511019413504), (66584576, 3530869726155007929657631550554312359057574937511019413504), (32768, 1569275433846670190958947355801916604025588861116008628224), (66584576, 1569275433846670190958947355801916604025588861116008628224)],
  [],
  [(2, 18831305206160042291507368269622999248307066333392103538688)],
  [(320, 25108406941546723055343157692830665664409421777856138051584), (32768, 105314651858809692089885229940493558401467549886196229731287826432), (32768, 25108406941546723055343157692830665664409421777856138051584)],
  [(1024, 105314651858809692089885229940493558401467549886196229731287826432), (1024, 25108406941546723055343157692830665664409421777856138051584), (32768, 105314651858809692089885229940493558401467549886196229731287826432), (66584576, 105314651858809692089885229940493558401467549886196229731287826432), (32768, 25108406941546723055343157692830665664409421777856138051584), (66584576, 25108406941546723055343157692830665664409421777856138051584)],
  [],
  [(2, 105314601641995808996439119254178172740136221067352674019011723264)],
  [],
  [],
  [(4, 52656145834278593348959013841835216159447547700274555627155488768)]]

/-- The transitions of the states. -/
def fromRows5 : List (List (Nat × Nat)) := [
  [(2, 1606938044258990275541962092341162602522202993782792835301376), (2, 3213876088517980551083924184682325205044405987565585670602752)],
  [(16777216, 6427752177035961102167848369364650410088811975131171341205504)],
  [(1048576, 12855504354071922204335696738729300820177623950262342682411008)],
  [(4194304, 25711008708143844408671393477458601640355247900524685364822016)],
  [(8388608, 51422017416287688817342786954917203280710495801049370729644032)],
  [(33554432, 102844034832575377634685573909834406561420991602098741459288064)],
  [(1048576, 205688069665150755269371147819668813122841983204197482918576128)],
  [(2, 411376139330301510538742295639337626245683966408394965837152256)],
  [(2097152, 822752278660603021077484591278675252491367932816789931674304512)],
  [(16777216, 1645504557321206042154969182557350504982735865633579863348609024)],
  [(8388608, 3291009114642412084309938365114701009965471731267159726697218048)],
  [(4194304, 6582018229284824168619876730229402019930943462534319453394436096)],
  [(2, 39492912844731074506857031362422582700886921876702808116784267264)],
  [(262912, 39492912844731074506857031362422582700886921876702808116784267264), (1024, 39492912844731074506857031362422582700886921876702808116784267264), (32768, 39492912844731074506857031362422582700886921876702808116784267264), (66584576, 39492912844731074506857031362422582700886921876702808116784267264)],
  [],
  [],
  []]

/-- The transitions of the states. -/
def fromRows : List (List (Nat × Nat)) := fromRows0 ++ (fromRows1 ++ (fromRows2 ++ (fromRows3 ++ (fromRows4 ++ (fromRows5)))))

/-- The tables. -/
def fromTables : List TagTable := [⟨[(bs "FROMCHECK_PASS", 157968437502835780048304289218211608359400929070273162017849212928), (bs "FROMCHECK_FAIL", 0)], bs "FROMCHECK_FAIL"⟩]

/-- The sets that can be reached. -/
def fromPairs0 : Tree (PairNode Nat) :=
  .node 16 (.node 8 (.node 4 (.node 2 (.node 1 (.leaf (2854495385411919762193943191354326539952980483, 20, 56539106072908298546665520389148801839205214250941014838968908754821578855)) (.leaf (0, 0, 0))) (.node 1 (.leaf (8563486156235759286581829574062979619854746115, 19, 395773742510358089826658642724041612874436499756587103872768850484667613287)) (.leaf (2854495385411919762193943191354326539952980242, 20, 56539106072908298546665520389148801839205214250941014838966656954974476390)))) (.node 2 (.node 1 (.leaf (8, 21, 1920)) (.leaf (3072, 22, 3422552064))) (.node 1 (.leaf (4, 22, 24)) (.leaf (14272476927059598810969715956771632699756511506, 18, 508851954656174686919989683502339216552846928258469133550699912594769188966))))) (.node 4 (.node 2 (.node 1 (.leaf (8563486156235759286581829574062979619852648448, 19, 339234636437449791279993122334892811035231285505646089033799941729846034432)) (.leaf (8, 21, 124800))) (.node 1 (.leaf (36, 22, 4456472)) (.leaf (2854495385411919762193943191354326539952980240, 20, 56539106072908298546665520389148801839205214250941014838966656954974476288)))) (.node 2 (.node 1 (.leaf (804864, 21, 1130507534336000)) (.leaf (8192, 22, 64424509440))) (.node 1 (.leaf (4096, 23, 805306368)) (.leaf (2, 21, 102)))))) (.node 8 (.node 4 (.node 2 (.node 1 (.leaf (25690458468707277859745488722188938859560042770, 17, 961164803239441075293313846615529631266488642265997252262433168234563901542)) (.leaf (11417981541647679048775772765417306159803531264, 18, 452312848583266388373324163113190414713641714007528118711733255639794712576))) (.node 1 (.leaf (132, 21, 8388632)) (.leaf (64, 21, 3670016)))) (.node 2 (.node 1 (.leaf (8, 21, 122880)) (.leaf (32, 22, 4456448))) (.node 1 (.leaf (8192, 22, 4187593113600)) (.leaf (2854495385411919762193943191354326539954028544, 20, 56539106072908298546665520389148801839205214250941014838966656954974339072))))) (.node 4 (.node 2 (.node 1 (.leaf (36864, 23, 149534386683904)) (.leaf (802816, 21, 1130504111783936))) (.node 1 (.leaf (2048, 22, 3422552064)) (.leaf (48526421552002635957297034253023551179167105298, 16, 1865790500405973852039962172841910460693772070281053489685899679514153326694)))) (.node 2 (.node 1 (.leaf (22835963083295358097551545530834612319607062528, 17, 904625697166532776746648326226380829427283428015056237423466511279589425152)) (.leaf (2854495385411919762193943191354326539952980356, 20, 56539106072908298546665520389148801839205214250941014838966656954991116312))) (.node 1 (.leaf (2854495385411919762193943191354326539952980224, 20, 56539106072908298546665520389148801839205214250941014838966656954974339072)) (.leaf (128, 21, 8388608))))))

/-- The sets that can be reached. -/
def fromPairs1 : Tree (PairNode Nat) :=
  .node 16 (.node 8 (.node 4 (.node 2 (.node 1 (.leaf (135168, 22, 281475782017024)) (.leaf (65536, 22, 123145302310912))) (.node 1 (.leaf (8192, 22, 4123168604160)) (.leaf (32768, 23, 149533581377536)))) (.node 2 (.node 1 (.leaf (8563486156235759289057709652633740169785114624, 16, 11194743002435843112239772966899384172279292347909448967733813133600157073408)) (.leaf (91343852333181432387730302044767688728495783936, 15, 23384026197294446691258957323460528314494920687616))) (.node 1 (.leaf (45671926166590716195103091061669224639214125056, 16, 1809251394333065553493296652452761658854566856030112474846933022559178850304)) (.leaf (2854495385411919762193943191354326539952980352, 20, 56539106072908298546665520389148801839205214250941014838966656954991116288))))) (.node 4 (.node 2 (.node 1 (.leaf (921600, 21, 1688850665570304)) (.leaf (786432, 21, 1125899906842624))) (.node 1 (.leaf (131072, 22, 281474976710656)) (.leaf (11417981541647679053727532922558827259668463616, 15, 14926324003247790816319697289199178896372389797212598623645084178133542764544)))) (.node 2 (.node 1 (.leaf (182687704666362864775460604089535377456991567872, 14, 514448576340477827207697061116131622918888255127552)) (.leaf (2475880078570760549932466176, 16, 10855508365998393320959779844564491361244061062403802878700013191870311038976))) (.node 1 (.leaf (917504, 21, 1688849860263936)) (.leaf (22835963083295358107455065845117654519336927232, 14, 29852648006495581632639394578398357792744779594425197247290168356267085529088)))))) (.node 8 (.node 4 (.node 2 (.node 1 (.leaf (1096126227998177188652763624537212264741949407232, 13, 935361047891777867650358292938421132579796827504640)) (.leaf (4951760157141521099864932352, 15, 14474011154664524427946373126085988481658748083205070504933350922493748051968))) (.node 1 (.leaf (45671926166590716214910131690235309038673854464, 13, 59705296012991163265278789156796715585489559188850394494580336712534171058176)) (.leaf (2923003274661805836407369665432566039311865085952, 12, 8979466059761067529443439612208842872766049544044544)))) (.node 2 (.node 1 (.leaf (1461501637330902918203684832716283019655932542976, 13, 1496577676626844588240573268701473812127674924007424)) (.leaf (9903520314283042199729864704, 14, 28948022309329048855892746252171976963317496166410141009866701844987496103936))) (.node 1 (.leaf (42089961335702929348851924992, 12, 1284568489976476542980240614940131477747213892384450007312834894371320139612160)) (.leaf (5846006549323611672814739330865132078623730171904, 11, 11972621413014756705924586149611790497021399392059392))))) (.node 4 (.node 2 (.node 1 (.leaf (19807040628566084399459729408, 13, 57896044618658097711785492504343953926634992332820282019733403689974992207872)) (.leaf (237684487542793012793516752896, 11, 2315841784746323908471419700173758157065399693312811280789336147598999688314880))) (.node 1 (.leaf (11692013098647223345629478661730264157247460343808, 10, 23945242826029513411849172299223580994042798784118784)) (.leaf (39614081257132168798919458816, 12, 1273712981610478149659280835095566986385969831322046204434134881179449828573184)))) (.node 2 (.node 1 (.leaf (633825300114114700782711341056, 10, 7610782441390318892800473702651038807379729552103222993186074315469352575678021632)) (.leaf (316912650057057350391355670528, 11, 3705346855594118253554271520278013051304639509300498049262937836158399501303808))) (.node 1 (.leaf (23384026197294446691258957323460528314494920687616, 9, 47890485652059026823698344598447161988085597568237568)) (.leaf (325786204258654956202313629302784, 9, 15206743495358261312586730319220965562554240546169243994175096879594071553350828032))))))

/-- The sets that can be reached. -/
def fromPairs2 : Tree (PairNode Nat) :=
  .node 16 (.node 8 (.node 4 (.node 2 (.node 1 (.leaf (46768052394588893382517914646921056628989841375232, 8, 1628276512170006912005743716347203507594910317320077312)) (.leaf (651572408517309912404627258605568, 8, 30413486990716522625173460638441931125108481092338487988350193759188143106701656064))) (.node 1 (.leaf (841824943102600080885322463644579019321817144754176, 7, 3256553024340013824011487432694407015189820634640154624)) (.leaf (1303144817034619824809254517211136, 7, 60826973981433045250346921276883862250216962184676975976700387518376286213403312128)))) (.node 2 (.node 1 (.leaf (1683649886205200161770644927289158038643634289508352, 6, 6295874805762287902350679174290257703601684998710783639552)) (.leaf (2606289634069239649618509034422272, 6, 121653947962866090500693842553767724500433924369353951953400775036752572426806624256))) (.node 1 (.leaf (1496577676626844588240573268701473812127674924007424, 6, 6295491681877071430136089587533470126305780313930237739008)) (.leaf (769615070205354829502714803429732907886656829670817792, 5, 12579489647197648693834491572363312933734420084444098461696))))) (.node 4 (.node 2 (.node 1 (.leaf (5212579268138479299237018068844544, 5, 243307895925732181001387685107535449000867848738707903906801550073505144853613248512)) (.leaf (769240925786198118355654660112557539433624910939815936, 5, 12578723399427215749405312398849737779142610714883006660608))) (.node 1 (.leaf (1539978429249023081299549893493816552679377496803639296, 4, 31452938480731502928946714385232945684591001743696251060224)) (.leaf (11150373315802278049178534822183535558787072, 4, 139756971234166739489564995981690073079499100858927691092969023605515241347345688752105831006208)))) (.node 2 (.node 1 (.leaf (40564819207303340850093525827584, 7, 948568795032094272909893509191171341133987714380927500611312086056550272333774848)) (.leaf (1538481851572396236711309320225115078867249821879631872, 4, 25157446798854431498810624797699475558285221429766013321216))) (.node 1 (.leaf (3076963703144792473422618640450230157734499643759263744, 3, 50314893597708862997621249595398951116570442859532026642432)) (.leaf (1412304745521473115036856195213164544, 6, 55754597206878424335388556725834992620637076280796404259931457269397489287125684505804800)))))) (.node 8 (.node 4 (.node 2 (.node 1 (.leaf (22300750515442606282408135995721607953776640, 3, 275342078849179815308733266810918827273004879835037271126007764520263462638313608717892082204672)) (.leaf (4589990422944787623869782634442784768, 5, 565510914526909732544655361076326353723604630848077814636447638018174534197989085701734400))) (.node 1 (.leaf (81129638414606681700187051655168, 6, 1897137590064188545819787018382342682267975428761855001222624172113100544667549696)) (.leaf (6153927406289584946845237280900460315468999287518527488, 2, 100629787195417725995242499190797902233140885719064053284864)))) (.node 2 (.node 1 (.leaf (4589990422944787623869782634442784768, 5, 955793094975058702892375258157171302068064164813652644455967838903956959207868877242368000)) (.leaf (44601501030885212564816271991443215907553280, 2, 550684157698359630617466533621837654546009759670074542252015529040526925276627217435784164409344))) (.node 1 (.leaf (12892618317900516504399247365839541487271936, 4, 6273052289122049902663678497456680046957996918294250683834494191229812775173759751174454509568)) (.leaf (162259276829213363400374103310336, 5, 3794275180128377091639574036764685364535950857523710002445248344226201089335099392))))) (.node 4 (.node 2 (.node 1 (.leaf (12307854812579169893690474561800920630937998575037054976, 1, 201259574390835451990484998381595804466281771438128106569728)) (.leaf (89203002061770425129632543982886431815106560, 1, 1101368315396719261234933067243675309092019519340149084504031058081053850553254434871568328818688))) (.node 1 (.leaf (2787593149816327892843080511532873835085824, 6, 114074014674731220831032958550925177018882230045292430035632951683347788735096783914846388224)) (.leaf (22300745198530623142744644092262990680686592, 3, 8343699359066055009355553539724812947666814540455674882606295894553438261767079052057335824384)))) (.node 2 (.node 1 (.leaf (9059677736903065651740011662481839964028928, 5, 1157036434557988097000477151016526795477234047602251790361419938502527571455981665422013366272)) (.leaf (105314602500193311881336879934852507944309363893846582441828941824, 0, 18347988927920572092886567162416695527666600239028472678126514743750752602685204876088121989424212776845312))) (.node 1 (.leaf (95780971304118053647396689196894323976171195136475136, 3, 784637716923335095479473677900958302012794430558004314112)) (.leaf (105314300341112510436297674509785949006718582971701732491747393536, 0, 22935001502762343730877859236536629253039005879839550314965724806536700417398504982185401200440897076985856))))))

/-- The sets that can be reached. -/
def fromPairs3 : Tree (PairNode Nat) :=
  .node 16 (.node 8 (.node 4 (.node 2 (.node 1 (.leaf (9059677736903065651740011662481839964028928, 5, 1955554537281106642817707860873003034609409657919298800610850600285962092601659152825938083840)) (.leaf (44601490397061246285489288184525981361373184, 2, 16687398718132110018711107079449625895333629080911349765212591789106876523534158104114671648768))) (.node 1 (.leaf (11150372599265311571372322046131495340343296, 4, 6257774519299541257016665154793609710750110905341756161954721920915078696325309289043001868288)) (.leaf (105317816376281829861887963859037190269514408299834148027499544576, 0, 18347988927920572092886567162416695532842909999121395518702581640458521692023536605215911905796105944694784)))) (.node 2 (.node 1 (.leaf (1667355148462087077893881565539536391777188164935759167488, 1, 23082058067736136317884743494388459622628923802696036286268964864)) (.leaf (105314607036380112844367900675559708309224547405314384105291382784, 0, 18347988927920572092886567162416695527666831060010884550554441160071187010366721815956699698232773675319296))) (.node 1 (.leaf (191561942608236107294793378393788647952342390272950272, 2, 1569275433846670190958947355801916604025588861116008628224)) (.leaf (105317514217201028416848758433970631331923627377689298077417996288, 0, 22935001502762343730877859236536629258215315639932473155541791703244469506736836711313191116812790244835328))))) (.node 4 (.node 2 (.node 1 (.leaf (713623846352979940529142984724747568191373312, 1, 9173994463960286046443283581208347763186259956673124494950355357547691504353939232280074212440502746218496)) (.leaf (2892400118827976939595481487796560986112, 1, 122725271135871809694088367149677786296612991036523841550086998250870361284630859267841609504206618624))) (.node 1 (.leaf (105314300341112510436119450641799302588771896528614352935089864704, 0, 25229727373533011401634002657830390249550290609939566683152004574497159741813864248370423309933741105741824)) (.leaf (89202980794122492570978576369051962722746368, 1, 33374797436264220037422214158899251790667258161822699530425183578213753047068316208229343297536)))) (.node 2 (.node 1 (.leaf (6427752177035961102167848369364650410088811975131171341205504, 12, 6901746346790563787434755862277025452451108972170386555162524223799296)) (.leaf (105314607036380112844367900675559708309224547405314384105291382784, 0, 18347988927920572092886567162416695527666992634417358703508666353275647729584080218423318570486777558073344))) (.node 1 (.leaf (105317834349389533137032494685731124688340513780406572996785864704, 0, 18347988927920572092886567162416695532849225850962515971822669417641114596319926831693918767021130610900992)) (.leaf (383123885216472214589586756787577295904684780545900544, 1, 3138550867693340381917894711603833208051177722232017256448)))))) (.node 8 (.node 4 (.node 2 (.node 1 (.leaf (1427247692705959881058285969449495136382746624, 0, 18347988927920572092886567162416695526372519913346248989900710715095383008707878464560148424881005492436992)) (.leaf (105314300341112510436119450641799302588771896528614352935089864704, 0, 25230586450430962504301861276400437994054366900876822350042855183484915834342856664385298201200270552072192))) (.node 1 (.leaf (105317514217201028416670557875326118998261689439364496645987237888, 0, 25262080947023453690877391482531483018973067616751355418142573813057095972475308098490287735558503063879680)) (.leaf (105314300341112510436297673021050593727612805238733319655282180096, 0, 22934986159967464710980737393095713837146166688612966227128878275714707309597664208315620482913031080116224)))) (.node 2 (.node 1 (.leaf (12855504354071922204335696738729300820177623950262342682411008, 11, 13803492693581127574869511724554050904902217944340773110325048447598592)) (.leaf (25108406941546723055343157692830665664409421777856138051584, 1, 47179906667513619640667276402284353678865002739446001841931317936128))) (.node 1 (.leaf (105314676967216633636608285283651251232133214295618007587425878016, 0, 18347988927920572092886567162416695527713777260036993319685394715674609634721326399581541905815910102335488)) (.leaf (43556142965880123325673132992701153673216, 1, 250851411123914071582433535423665759149624295690280747908818760775642573010512841886230572178329355419648))))) (.node 4 (.node 2 (.node 1 (.leaf (105314300341112510436119571952463109903334127797926164637912399872, 0, 25479336187014700699301463383746622108774557469890193582451823164521088754405009812781822511162484427063296)) (.leaf (105317514217201028416848756945235276052817849644720885240952782848, 0, 22934986159967464710980737393095713842322476448705889067704945172422476398935995937443410399284924247965696))) (.node 1 (.leaf (25711008708143844408671393477458601640355247900524685364822016, 10, 27606985387162255149739023449108101809804435888681546220650096895197184)) (.leaf (105314676967216633636608285283651251232133214295618007587425878016, 0, 18347988927920572092886567162416695528044036606709588657170065650490600110473381418757663918709429327888384)))) (.node 2 (.node 1 (.leaf (105317815518084326976990203178362855065341265473340239604682326016, 0, 18347988927920572092886567162416695532842907113462402540620794335980094370380793125969885820345871952248832)) (.leaf (105314300341112510436119571952463109903334127797926164637912399872, 0, 27235296064882099200378498131712282422821927539722158817813554489950586765478599705985436516410789915000832))) (.node 1 (.leaf (105317514217201028416670525208218894588169195184514752120121982976, 0, 25228484775890786627719029848322956354801242934292835675119071300453215270732828700023381855356048239493120)) (.leaf (51422017416287688817342786954917203280710495801049370729644032, 9, 55213970774324510299478046898216203619608871777363092441300193790394368))))))

/-- The sets that can be reached. -/
def fromPairs4 : Tree (PairNode Nat) :=
  .node 4 (.node 2 (.node 1 (.leaf (102844034832575377634685573909834406561420991602098741459288064, 8, 110427941548649020598956093796432407239217743554726184882600387580788736)) (.leaf (205688069665150755269371147819668813122841983204197482918576128, 7, 220855883097298041197912187592864814478435487109452369765200775161577472))) (.node 1 (.leaf (411376139330301510538742295639337626245683966408394965837152256, 6, 441711766194596082395824375185729628956870974218904739530401550323154944)) (.leaf (822752278660603021077484591278675252491367932816789931674304512, 5, 883423532389192164791648750371459257913741948437809479060803100646309888)))) (.node 2 (.node 1 (.leaf (1645504557321206042154969182557350504982735865633579863348609024, 4, 1766847064778384329583297500742918515827483896875618958121606201292619776)) (.leaf (3291009114642412084309938365114701009965471731267159726697218048, 3, 3533694129556768659166595001485837031654967793751237916243212402585239552))) (.node 1 (.leaf (6582018229284824168619876730229402019930943462534319453394436096, 2, 7067388259113537318333190002971674063309935587502475832486424805170479104)) (.node 1 (.leaf (39492912844731074506857031362422582700886921876702808116784267264, 1, 42404329554681223909999140017830044379859613525014854994918548831022874624)) (.leaf (52656145834278593348959013841835216159447547700274555627155488768, 0, 18347988927920572092886567162416695526372519913346248989900710715095383008707878464560148424881005492436992)))))

/-- The sets that can be reached. -/
def fromPairs : Tree (PairNode Nat) := (.node 64 (.node 32 fromPairs0 fromPairs1) (.node 32 fromPairs2 (.node 32 fromPairs3 fromPairs4)))

/-- The successors. -/
def fromNext0 : List (List Nat) := [
  [1, 2, 1, 1, 3, 4, 3, 1, 3, 3, 3, 1, 5, 1, 6, 3, 1, 1, 3, 3, 3, 3, 3, 3, 3, 3],
  [1, 1, 1, 1, 1, 1, 1, 1, 1, 1, 1, 1, 1, 1, 1, 1, 1, 1, 1, 1, 1, 1, 1, 1, 1, 1],
  [1, 2, 1, 1, 3, 4, 3, 1, 3, 3, 3, 1, 5, 1, 6, 7, 1, 1, 3, 3, 3, 3, 3, 3, 3, 3],
  [1, 8, 1, 1, 3, 9, 3, 1, 3, 3, 3, 1, 1, 1, 10, 3, 1, 1, 3, 3, 3, 3, 3, 3, 3, 3],
  [1, 4, 1, 1, 4, 11, 4, 1, 4, 4, 4, 4, 4, 4, 4, 4, 1, 1, 4, 4, 4, 4, 4, 4, 4, 4],
  [1, 1, 1, 1, 12, 13, 12, 1, 12, 12, 12, 1, 1, 1, 14, 12, 1, 1, 12, 12, 12, 12, 12, 12, 12, 12],
  [1, 1, 1, 1, 1, 1, 1, 1, 6, 6, 6, 15, 1, 1, 1, 6, 1, 1, 6, 6, 6, 6, 6, 6, 6, 6],
  [1, 8, 1, 1, 3, 9, 3, 1, 3, 3, 3, 1, 1, 1, 10, 3, 1, 1, 3, 16, 16, 16, 16, 16, 16, 16],
  [1, 8, 1, 1, 1, 1, 1, 1, 1, 1, 1, 1, 1, 1, 1, 17, 1, 1, 1, 1, 1, 1, 1, 1, 1, 1],
  [1, 9, 1, 1, 9, 11, 9, 1, 9, 9, 9, 9, 9, 9, 9, 9, 1, 1, 9, 9, 9, 9, 9, 9, 9, 9],
  [1, 1, 1, 1, 1, 1, 1, 1, 18, 18, 18, 15, 1, 1, 1, 18, 19, 1, 18, 18, 18, 18, 18, 18, 18, 18],
  [1, 8, 1, 1, 11, 20, 11, 1, 11, 11, 11, 1, 1, 1, 21, 11, 1, 1, 11, 11, 11, 11, 11, 11, 11, 11],
  [1, 1, 1, 1, 12, 22, 12, 1, 12, 12, 12, 1, 1, 23, 24, 12, 1, 1, 12, 12, 12, 12, 12, 12, 12, 12],
  [1, 13, 1, 1, 13, 25, 13, 1, 13, 13, 13, 13, 13, 13, 13, 13, 1, 1, 13, 13, 13, 13, 13, 13, 13, 13],
  [1, 1, 1, 1, 1, 1, 1, 1, 14, 14, 14, 26, 1, 1, 1, 14, 1, 1, 14, 14, 14, 14, 14, 14, 14, 14],
  [1, 1, 1, 1, 3, 4, 3, 1, 3, 3, 3, 1, 1, 1, 6, 3, 1, 1, 3, 3, 3, 3, 3, 3, 3, 3]]

/-- The successors. -/
def fromNext1 : List (List Nat) := [
  [1, 8, 1, 1, 3, 9, 3, 1, 3, 3, 3, 1, 1, 1, 10, 3, 1, 1, 3, 27, 27, 27, 27, 27, 27, 27],
  [1, 1, 1, 1, 1, 1, 1, 1, 1, 1, 1, 1, 1, 1, 1, 1, 1, 1, 1, 28, 28, 28, 28, 28, 28, 28],
  [1, 1, 1, 1, 1, 1, 1, 1, 29, 29, 29, 15, 1, 1, 1, 29, 1, 1, 29, 29, 29, 29, 29, 29, 29, 29],
  [1, 1, 1, 1, 1, 1, 1, 1, 1, 19, 19, 1, 1, 1, 1, 1, 1, 30, 1, 1, 1, 1, 1, 1, 1, 1],
  [1, 20, 1, 1, 20, 11, 20, 1, 20, 20, 20, 20, 20, 20, 20, 20, 1, 1, 20, 20, 20, 20, 20, 20, 20, 20],
  [1, 1, 1, 1, 1, 1, 1, 1, 31, 31, 31, 1, 1, 1, 1, 31, 19, 1, 31, 31, 31, 31, 31, 31, 31, 31],
  [1, 22, 1, 1, 22, 25, 22, 1, 22, 22, 22, 22, 22, 22, 22, 22, 1, 1, 22, 22, 22, 22, 22, 22, 22, 22],
  [1, 8, 1, 1, 1, 1, 1, 1, 1, 1, 1, 1, 1, 1, 1, 1, 1, 1, 1, 1, 1, 1, 1, 1, 1, 1],
  [1, 1, 1, 1, 1, 1, 1, 1, 32, 32, 32, 26, 1, 1, 1, 32, 33, 1, 32, 32, 32, 32, 32, 32, 32, 32],
  [1, 1, 1, 1, 25, 34, 25, 1, 25, 25, 25, 1, 1, 23, 35, 25, 1, 1, 25, 25, 25, 25, 25, 25, 25, 25],
  [1, 1, 1, 1, 12, 13, 12, 1, 12, 12, 12, 1, 1, 1, 14, 12, 1, 1, 12, 12, 12, 12, 12, 12, 12, 12],
  [1, 36, 1, 1, 3, 9, 3, 37, 3, 3, 3, 1, 1, 1, 10, 3, 1, 1, 3, 3, 3, 3, 3, 3, 3, 3],
  [1, 1, 1, 1, 1, 1, 1, 1, 1, 1, 1, 1, 1, 1, 1, 1, 1, 1, 1, 38, 38, 38, 38, 38, 38, 38],
  [1, 8, 1, 1, 1, 1, 1, 1, 29, 29, 29, 15, 1, 1, 1, 29, 1, 1, 29, 29, 29, 29, 29, 29, 29, 29],
  [1, 8, 1, 1, 1, 1, 1, 1, 1, 1, 1, 1, 1, 1, 1, 1, 1, 1, 1, 1, 1, 1, 1, 1, 1, 1],
  [1, 1, 1, 1, 1, 1, 1, 1, 39, 39, 39, 1, 1, 1, 1, 39, 1, 1, 39, 39, 39, 39, 39, 39, 39, 39]]

/-- The successors. -/
def fromNext2 : List (List Nat) := [
  [1, 1, 1, 1, 1, 1, 1, 1, 40, 40, 40, 26, 1, 1, 1, 40, 1, 1, 40, 40, 40, 40, 40, 40, 40, 40],
  [1, 1, 1, 1, 1, 1, 1, 1, 1, 33, 33, 1, 1, 1, 1, 1, 1, 41, 1, 1, 1, 1, 1, 1, 1, 1],
  [1, 34, 1, 1, 34, 25, 34, 1, 34, 34, 34, 34, 34, 34, 34, 34, 1, 1, 34, 34, 34, 34, 34, 34, 34, 34],
  [1, 1, 1, 1, 1, 1, 1, 1, 42, 42, 42, 1, 1, 1, 1, 42, 33, 1, 42, 42, 42, 42, 42, 42, 42, 42],
  [1, 36, 1, 1, 1, 1, 1, 1, 1, 1, 1, 1, 1, 1, 1, 43, 1, 1, 1, 1, 1, 1, 1, 1, 1, 1],
  [1, 44, 1, 1, 1, 1, 1, 1, 1, 1, 1, 1, 1, 1, 1, 1, 1, 1, 1, 1, 1, 1, 1, 1, 1, 1],
  [1, 45, 1, 1, 1, 1, 1, 37, 1, 1, 1, 1, 1, 1, 1, 1, 1, 1, 1, 1, 1, 1, 1, 1, 1, 1],
  [1, 8, 1, 1, 1, 1, 1, 1, 39, 39, 39, 1, 1, 1, 1, 39, 1, 1, 39, 39, 39, 39, 39, 39, 39, 39],
  [1, 1, 1, 1, 1, 1, 1, 1, 40, 40, 40, 26, 1, 23, 1, 40, 1, 1, 40, 40, 40, 40, 40, 40, 40, 40],
  [1, 1, 1, 1, 1, 1, 1, 1, 1, 1, 1, 1, 1, 23, 1, 1, 1, 1, 1, 1, 1, 1, 1, 1, 1, 1],
  [1, 1, 1, 1, 1, 1, 1, 1, 46, 46, 46, 1, 1, 1, 1, 46, 1, 1, 46, 46, 46, 46, 46, 46, 46, 46],
  [1, 1, 1, 1, 1, 1, 1, 1, 1, 1, 1, 1, 1, 1, 1, 1, 1, 1, 1, 47, 47, 47, 47, 47, 47, 47],
  [1, 44, 1, 1, 1, 1, 1, 1, 1, 1, 48, 1, 1, 1, 1, 1, 1, 1, 1, 1, 1, 1, 1, 1, 1, 1],
  [1, 45, 1, 1, 1, 1, 1, 1, 1, 1, 1, 1, 1, 1, 1, 49, 1, 1, 1, 1, 1, 1, 1, 1, 1, 1],
  [1, 1, 1, 1, 1, 1, 1, 1, 46, 46, 46, 1, 1, 23, 1, 46, 1, 1, 46, 46, 46, 46, 46, 46, 46, 46],
  [1, 1, 1, 1, 1, 1, 1, 1, 1, 1, 1, 1, 1, 1, 1, 1, 1, 1, 1, 50, 50, 50, 50, 50, 50, 50]]

/-- The successors. -/
def fromNext3 : List (List Nat) := [
  [1, 51, 1, 1, 1, 1, 1, 1, 1, 1, 52, 1, 1, 1, 1, 1, 1, 1, 1, 1, 1, 1, 1, 1, 1, 1],
  [1, 1, 1, 1, 1, 1, 1, 1, 1, 1, 1, 1, 1, 1, 1, 1, 1, 1, 1, 53, 53, 53, 53, 53, 53, 53],
  [1, 54, 1, 1, 1, 1, 1, 37, 1, 1, 1, 1, 1, 1, 1, 1, 1, 1, 1, 1, 1, 1, 1, 1, 1, 1],
  [1, 51, 1, 1, 1, 1, 1, 1, 1, 1, 1, 1, 1, 1, 1, 55, 1, 1, 1, 1, 1, 1, 1, 1, 1, 1],
  [1, 51, 1, 1, 1, 1, 1, 1, 1, 1, 1, 1, 1, 1, 1, 1, 1, 1, 1, 1, 1, 1, 1, 1, 1, 1],
  [1, 1, 1, 1, 1, 1, 1, 1, 1, 1, 1, 1, 1, 1, 1, 1, 1, 1, 1, 56, 56, 56, 56, 56, 56, 56],
  [1, 54, 1, 1, 1, 1, 1, 1, 1, 1, 57, 1, 1, 1, 1, 49, 1, 1, 1, 1, 1, 1, 1, 1, 1, 1],
  [1, 1, 1, 1, 1, 1, 1, 1, 1, 1, 1, 1, 1, 1, 1, 1, 1, 1, 1, 58, 58, 58, 58, 58, 58, 58],
  [1, 59, 1, 1, 1, 1, 1, 1, 1, 1, 1, 1, 1, 1, 1, 1, 1, 1, 1, 1, 1, 1, 1, 1, 1, 1],
  [1, 60, 1, 1, 1, 1, 1, 1, 1, 1, 61, 1, 1, 1, 1, 1, 1, 1, 1, 1, 1, 1, 1, 1, 1, 1],
  [1, 1, 1, 1, 1, 1, 1, 1, 1, 1, 1, 1, 1, 1, 1, 1, 1, 1, 1, 62, 62, 62, 62, 62, 62, 62],
  [1, 59, 1, 1, 1, 1, 1, 1, 1, 1, 57, 1, 1, 1, 1, 1, 1, 1, 1, 1, 1, 1, 1, 1, 1, 1],
  [1, 60, 1, 1, 1, 1, 1, 1, 1, 1, 63, 1, 1, 1, 1, 1, 1, 1, 1, 1, 1, 1, 1, 1, 1, 1],
  [1, 60, 1, 1, 1, 1, 1, 1, 1, 1, 1, 1, 1, 1, 1, 1, 1, 1, 1, 1, 1, 1, 1, 1, 1, 1],
  [1, 64, 1, 1, 1, 1, 1, 1, 1, 1, 1, 1, 1, 1, 1, 1, 1, 1, 1, 1, 1, 1, 1, 1, 1, 1],
  [1, 1, 1, 1, 1, 1, 1, 1, 1, 1, 65, 1, 1, 1, 1, 1, 1, 1, 1, 1, 1, 1, 1, 1, 1, 1]]

/-- The successors. -/
def fromNext4 : List (List Nat) := [
  [1, 1, 1, 1, 1, 1, 1, 1, 1, 1, 66, 1, 1, 1, 1, 1, 1, 1, 1, 1, 1, 1, 1, 1, 1, 1],
  [1, 1, 1, 1, 1, 1, 1, 1, 1, 1, 1, 67, 1, 1, 1, 1, 1, 1, 1, 1, 1, 1, 1, 1, 1, 1],
  [1, 1, 1, 1, 1, 1, 1, 1, 1, 1, 68, 1, 1, 1, 1, 1, 1, 1, 1, 1, 1, 1, 1, 1, 1, 1],
  [1, 1, 1, 1, 1, 1, 1, 1, 1, 1, 69, 1, 1, 1, 1, 1, 1, 1, 1, 1, 1, 1, 1, 1, 1, 1],
  [1, 70, 1, 1, 1, 1, 1, 1, 1, 1, 71, 1, 1, 1, 1, 1, 1, 1, 1, 1, 1, 1, 1, 1, 1, 1],
  [1, 1, 1, 1, 1, 1, 1, 1, 1, 1, 72, 1, 1, 1, 1, 1, 1, 1, 1, 1, 1, 1, 1, 1, 1, 1],
  [1, 70, 1, 1, 1, 1, 1, 1, 1, 1, 73, 1, 1, 1, 1, 1, 1, 1, 1, 1, 1, 1, 1, 1, 1, 1],
  [1, 1, 1, 1, 1, 1, 1, 1, 1, 1, 74, 1, 1, 1, 1, 1, 1, 1, 1, 1, 1, 1, 1, 1, 1, 1],
  [1, 75, 1, 1, 1, 1, 1, 1, 1, 1, 1, 76, 1, 1, 1, 1, 1, 1, 1, 1, 1, 1, 1, 1, 1, 1],
  [1, 1, 1, 1, 1, 1, 1, 1, 1, 1, 77, 1, 1, 1, 1, 1, 1, 1, 1, 1, 1, 1, 1, 1, 1, 1],
  [1, 70, 1, 1, 1, 1, 1, 1, 1, 1, 73, 78, 1, 1, 1, 1, 1, 1, 1, 1, 1, 1, 1, 1, 1, 1],
  [1, 75, 1, 1, 1, 1, 79, 1, 79, 1, 80, 1, 1, 1, 1, 81, 1, 1, 1, 1, 1, 1, 1, 1, 1, 1],
  [1, 1, 1, 1, 1, 1, 1, 1, 1, 1, 82, 1, 1, 1, 1, 1, 1, 1, 1, 1, 1, 1, 1, 1, 1, 1],
  [1, 1, 1, 1, 1, 1, 1, 1, 1, 1, 1, 78, 1, 1, 1, 1, 1, 1, 1, 1, 1, 1, 1, 1, 1, 1],
  [1, 1, 1, 1, 1, 1, 1, 1, 1, 1, 83, 1, 1, 1, 1, 1, 1, 1, 1, 1, 1, 1, 1, 1, 1, 1],
  [1, 1, 1, 1, 1, 1, 1, 1, 1, 1, 84, 1, 1, 1, 1, 84, 1, 1, 1, 84, 84, 84, 84, 84, 84, 84]]

/-- The successors. -/
def fromNext5 : List (List Nat) := [
  [1, 1, 1, 1, 1, 1, 1, 1, 1, 1, 85, 1, 1, 1, 1, 1, 1, 1, 1, 1, 1, 1, 1, 1, 1, 1],
  [1, 86, 1, 1, 1, 1, 1, 1, 1, 1, 84, 1, 1, 1, 1, 84, 1, 1, 1, 84, 84, 84, 84, 84, 84, 84],
  [1, 1, 1, 1, 1, 1, 1, 1, 1, 1, 87, 1, 1, 1, 1, 1, 1, 1, 1, 1, 1, 1, 1, 1, 1, 1],
  [1, 1, 1, 1, 1, 1, 1, 1, 1, 1, 88, 1, 1, 1, 1, 1, 1, 1, 1, 1, 1, 1, 1, 1, 1, 1],
  [1, 86, 1, 1, 1, 1, 1, 1, 1, 1, 84, 1, 1, 1, 1, 84, 1, 1, 1, 84, 84, 84, 84, 84, 84, 84],
  [1, 1, 1, 1, 1, 1, 1, 1, 1, 1, 89, 1, 1, 1, 1, 1, 1, 1, 1, 1, 1, 1, 1, 1, 1, 1],
  [1, 86, 1, 1, 1, 1, 90, 1, 90, 1, 91, 1, 1, 1, 1, 92, 1, 1, 1, 1, 1, 1, 1, 1, 1, 1],
  [1, 75, 1, 1, 1, 1, 1, 1, 1, 1, 1, 1, 1, 1, 1, 1, 1, 1, 1, 1, 1, 1, 1, 1, 1, 1],
  [1, 93, 1, 1, 1, 1, 1, 1, 1, 1, 1, 94, 1, 1, 1, 1, 1, 1, 1, 1, 1, 1, 1, 1, 1, 1],
  [1, 1, 1, 1, 1, 1, 1, 1, 1, 1, 95, 1, 1, 1, 1, 1, 1, 1, 1, 1, 1, 1, 1, 1, 1, 1],
  [1, 1, 1, 1, 1, 1, 1, 1, 1, 1, 96, 1, 1, 1, 1, 96, 1, 1, 1, 96, 96, 96, 96, 96, 96, 96],
  [1, 1, 1, 1, 1, 1, 1, 1, 1, 1, 97, 1, 1, 1, 1, 1, 1, 1, 1, 1, 1, 1, 1, 1, 1, 1],
  [1, 98, 1, 1, 1, 1, 1, 1, 1, 1, 96, 1, 1, 1, 1, 96, 1, 1, 1, 96, 96, 96, 96, 96, 96, 96],
  [1, 99, 1, 1, 1, 1, 100, 1, 100, 1, 1, 1, 1, 1, 1, 101, 1, 1, 1, 1, 1, 1, 1, 1, 1, 1],
  [1, 1, 1, 1, 1, 1, 1, 1, 1, 1, 102, 1, 1, 1, 1, 1, 1, 1, 1, 1, 1, 1, 1, 1, 1, 1],
  [1, 103, 1, 104, 1, 1, 105, 1, 105, 1, 1, 1, 1, 1, 1, 106, 1, 1, 1, 1, 1, 1, 1, 1, 1, 1]]

/-- The successors. -/
def fromNext6 : List (List Nat) := [
  [1, 98, 1, 1, 1, 1, 1, 1, 1, 1, 96, 1, 1, 1, 1, 96, 1, 1, 1, 96, 96, 96, 96, 96, 96, 96],
  [1, 1, 1, 1, 1, 1, 1, 1, 1, 1, 107, 1, 1, 1, 1, 1, 1, 1, 1, 1, 1, 1, 1, 1, 1, 1],
  [1, 98, 1, 1, 1, 1, 1, 1, 1, 1, 91, 1, 1, 1, 1, 1, 1, 1, 1, 1, 1, 1, 1, 1, 1, 1],
  [1, 99, 1, 1, 1, 1, 100, 1, 100, 1, 1, 1, 1, 1, 1, 101, 1, 1, 1, 1, 1, 1, 1, 1, 108, 1],
  [1, 1, 1, 1, 1, 1, 1, 1, 1, 1, 109, 1, 1, 1, 1, 109, 1, 1, 1, 109, 109, 109, 109, 109, 109, 109],
  [1, 110, 1, 1, 1, 1, 1, 1, 1, 1, 109, 1, 1, 1, 1, 109, 1, 1, 1, 109, 109, 109, 109, 109, 109, 109],
  [1, 1, 1, 1, 1, 1, 1, 1, 1, 1, 111, 1, 1, 1, 1, 1, 1, 1, 1, 1, 1, 1, 1, 1, 1, 1],
  [1, 103, 1, 104, 1, 1, 105, 1, 105, 1, 1, 1, 1, 1, 1, 106, 1, 1, 1, 1, 1, 1, 1, 1, 108, 1],
  [1, 1, 112, 1, 1, 1, 1, 1, 1, 1, 1, 1, 1, 1, 1, 1, 1, 1, 1, 1, 1, 1, 1, 1, 1, 1],
  [1, 1, 1, 1, 1, 1, 1, 1, 1, 1, 113, 1, 1, 1, 1, 113, 1, 1, 1, 113, 113, 113, 113, 113, 113, 113],
  [1, 114, 1, 104, 1, 1, 1, 1, 1, 1, 113, 1, 1, 1, 1, 113, 1, 1, 1, 113, 113, 113, 113, 113, 113, 113],
  [1, 1, 1, 1, 1, 1, 1, 1, 1, 1, 115, 1, 1, 1, 1, 1, 1, 1, 1, 1, 1, 1, 1, 1, 1, 1],
  [1, 1, 1, 1, 1, 1, 1, 1, 1, 1, 1, 1, 1, 1, 1, 1, 1, 1, 1, 1, 116, 1, 1, 1, 1, 1],
  [1, 110, 1, 1, 1, 1, 1, 1, 1, 1, 109, 1, 1, 1, 1, 109, 1, 1, 1, 109, 109, 109, 109, 109, 109, 109],
  [1, 110, 1, 1, 1, 1, 117, 1, 117, 1, 1, 1, 1, 1, 1, 118, 1, 1, 1, 1, 1, 1, 1, 1, 108, 1],
  [1, 93, 1, 1, 1, 1, 1, 1, 1, 1, 1, 1, 1, 1, 1, 1, 1, 1, 1, 1, 1, 1, 1, 1, 1, 1]]

/-- The successors. -/
def fromNext7 : List (List Nat) := [
  [1, 1, 1, 1, 1, 1, 1, 1, 1, 1, 1, 1, 1, 1, 1, 1, 1, 1, 1, 1, 1, 1, 1, 1, 1, 1],
  [1, 114, 1, 104, 1, 1, 1, 1, 1, 1, 113, 1, 1, 1, 1, 113, 1, 1, 1, 113, 113, 113, 113, 113, 113, 113],
  [1, 114, 1, 104, 1, 1, 119, 1, 119, 1, 1, 1, 1, 1, 1, 120, 1, 1, 1, 1, 1, 1, 1, 1, 108, 1],
  [1, 121, 1, 104, 1, 1, 1, 1, 1, 1, 1, 1, 1, 1, 1, 1, 1, 1, 1, 1, 1, 1, 1, 1, 1, 1],
  [1, 1, 1, 1, 1, 1, 1, 1, 1, 1, 1, 1, 1, 1, 1, 1, 1, 1, 1, 1, 1, 1, 122, 1, 1, 1],
  [1, 1, 1, 1, 1, 1, 1, 1, 1, 1, 123, 1, 1, 1, 1, 123, 1, 1, 1, 123, 123, 123, 123, 123, 123, 123],
  [1, 124, 1, 1, 1, 1, 1, 1, 1, 1, 123, 1, 1, 1, 1, 123, 1, 1, 1, 123, 123, 123, 123, 123, 123, 123],
  [1, 1, 1, 1, 1, 1, 1, 1, 1, 1, 125, 1, 1, 1, 1, 125, 1, 1, 1, 125, 125, 125, 125, 125, 125, 125],
  [1, 126, 1, 104, 1, 1, 1, 1, 1, 1, 125, 1, 1, 1, 1, 125, 1, 1, 1, 125, 125, 125, 125, 125, 125, 125],
  [1, 121, 1, 104, 1, 1, 1, 1, 1, 1, 1, 1, 1, 1, 1, 1, 1, 1, 1, 1, 1, 1, 1, 1, 108, 1],
  [1, 1, 1, 1, 1, 1, 1, 1, 1, 1, 1, 1, 1, 1, 1, 1, 1, 1, 1, 1, 1, 1, 1, 127, 1, 1],
  [1, 124, 1, 1, 1, 1, 1, 1, 1, 1, 123, 1, 1, 1, 1, 123, 1, 1, 1, 123, 123, 123, 123, 123, 123, 123],
  [1, 124, 1, 1, 1, 1, 1, 1, 1, 1, 1, 1, 1, 1, 1, 1, 1, 1, 1, 1, 1, 1, 1, 1, 108, 1],
  [1, 126, 1, 104, 1, 1, 1, 1, 1, 1, 125, 1, 1, 1, 1, 125, 1, 1, 1, 125, 125, 125, 125, 125, 125, 125],
  [1, 126, 1, 104, 1, 1, 1, 1, 1, 1, 1, 1, 1, 1, 1, 1, 1, 1, 1, 1, 1, 1, 1, 1, 108, 1],
  [1, 1, 1, 1, 1, 1, 1, 1, 1, 1, 1, 1, 1, 1, 1, 1, 1, 1, 1, 1, 1, 1, 1, 1, 1, 128]]

/-- The successors. -/
def fromNext8 : List (List Nat) := [
  [1, 1, 1, 1, 1, 1, 1, 1, 1, 1, 1, 1, 1, 1, 1, 1, 1, 1, 1, 1, 129, 1, 1, 1, 1, 1],
  [1, 130, 1, 1, 1, 1, 1, 1, 1, 1, 1, 1, 1, 1, 1, 1, 1, 1, 1, 1, 1, 1, 1, 1, 1, 1],
  [1, 1, 1, 1, 1, 1, 1, 1, 1, 1, 1, 1, 1, 1, 1, 1, 1, 1, 1, 1, 1, 131, 1, 1, 1, 1],
  [1, 1, 1, 1, 1, 1, 1, 1, 1, 1, 1, 1, 1, 1, 1, 1, 1, 1, 1, 1, 1, 1, 1, 1, 132, 1],
  [1, 1, 1, 1, 1, 1, 1, 1, 1, 1, 1, 1, 1, 1, 1, 1, 1, 1, 1, 1, 1, 1, 1, 133, 1, 1],
  [1, 1, 1, 1, 1, 1, 1, 1, 1, 1, 1, 1, 1, 1, 1, 1, 1, 1, 1, 1, 1, 1, 134, 1, 1, 1],
  [1, 135, 1, 1, 1, 1, 1, 1, 1, 1, 1, 1, 1, 1, 1, 1, 1, 1, 1, 1, 1, 1, 1, 1, 1, 1],
  [1, 1, 136, 1, 1, 1, 1, 1, 135, 135, 135, 1, 1, 1, 1, 135, 1, 1, 135, 135, 135, 135, 135, 135, 135, 135],
  [1, 1, 1, 1, 1, 1, 1, 1, 1, 1, 1, 1, 1, 1, 1, 1, 1, 1, 1, 1, 1, 1, 1, 1, 1, 1]]


/-- The groups of the classes. -/
def fromMasks : FromMasks := ⟨1024, 66584576, 32768, 2, 320, 2048, 66881360, 66881280, 32, 30720, 16384, 65536, 131072, 512, 4096, 8192, 128, 16777216, 1048576, 4194304, 8388608, 33554432, 2097152, 4, 8⟩

/-- The table of the positions. -/
def fromTable : List (Nat × Nat) := [
  (2, 56539106072908298546665520389148801839205214250941014838968908754821578855),
  (66881360, 102),
  (16384, 24),
  (66881280, 24),
  (2048, 102),
  (66881360, 56539106072908298546665520389148801839205214250941014838966656954974476288),
  (32, 1920),
  (66881360, 1920),
  (2, 1920),
  (30720, 1920),
  (32, 56539106072908298546665520389148801839205214250941014838966656954974476288),
  (66881360, 56539106072908298546665520389148801839205214250941014838966656954974476288),
  (32, 122880),
  (66881360, 122880),
  (2, 122880),
  (30720, 122880),
  (32, 56539106072908298546665520389148801839205214250941014838966656954974476288),
  (16384, 4456448),
  (65536, 3670016),
  (1024, 3670016),
  (512, 3670016),
  (131072, 56539106072908298546665520389148801839205214250941014838966656954974339072),
  (66881280, 8388608),
  (66881280, 56539106072908298546665520389148801839205214250941014838966656954991116288),
  (66881280, 56539106072908298546665520389148801839205214250941014838966656954991116288),
  (4096, 3422552064),
  (66881360, 3422552064),
  (16384, 805306368),
  (66881280, 805306368),
  (2048, 3422552064),
  (66881360, 1130504111783936),
  (32, 64424509440),
  (66881360, 64424509440),
  (2, 64424509440),
  (30720, 64424509440),
  (32, 1130504111783936),
  (66881360, 1130504111783936),
  (32, 4123168604160),
  (66881360, 4123168604160),
  (2, 4123168604160),
  (30720, 4123168604160),
  (32, 1130504111783936),
  (16384, 149533581377536),
  (65536, 123145302310912),
  (1024, 123145302310912),
  (512, 123145302310912),
  (131072, 1125899906842624),
  (66881280, 281474976710656),
  (66881280, 1688849860263936),
  (66881280, 1688849860263936),
  (8192, 56539106072908298546665520389148801839205214250941014838966656954974339072),
  (320, 56539106072908298546665520389148801839205214250941014838966656954974339072),
  (2, 27021597764222976),
  (2, 27021597764222976),
  (32768, 36028797018963968),
  (66584576, 72057594037927936),
  (66584576, 144115188075855872),
  (2, 864691128455135232),
  (2, 864691128455135232),
  (32768, 1152921504606846976),
  (66584576, 2305843009213693952),
  (66584576, 4611686018427387904),
  (2, 101457092405402533888),
  (2, 101457092405402533888),
  (1024, 36893488147419103232),
  (2, 606233797238390704308224),
  (1024, 147573952589676412928),
  (1024, 295147905179352825856),
  (2, 606233797238390704308224),
  (2, 606233797238390704308224),
  (1024, 2361183241434822606848),
  (1024, 4722366482869645213696),
  (2048, 9444732965739290427392),
  (1024, 18889465931478580854784),
  (1024, 37778931862957161709568),
  (2048, 75557863725914323419136),
  (1024, 151115727451828646838272),
  (1024, 302231454903657293676544),
  (2, 11132285019876092428834769288514502656),
  (1024, 1208925819614629174706176),
  (1024, 2417851639229258349412352),
  (2048, 4835703278458516698824704),
  (1024, 9671406556917033397649408),
  (1024, 19342813113834066795298816),
  (2, 11132285019876092428834769288514502656),
  (2, 11132285019876092428834769288514502656),
  (32768, 39614081257132168796771975168),
  (32768, 4332790137498830962146934784),
  (320, 4332790137498830962146934784),
  (32768, 74276402357122816493947453440),
  (66584576, 74276402357122816493947453440),
  (1024, 74276402357122816493947453440),
  (32768, 74276402357122816493947453440),
  (66584576, 74276402357122816493947453440),
  (1024, 74276402357122816493947453440),
  (2, 498460498419343452338927647605129216),
  (32768, 40564819207303340847894502572032),
  (32768, 4436777100798802905238461218816),
  (320, 4436777100798802905238461218816),
  (32768, 76059036013693764089802192322560),
  (66584576, 76059036013693764089802192322560),
  (1024, 76059036013693764089802192322560),
  (32768, 76059036013693764089802192322560),
  (66584576, 76059036013693764089802192322560),
  (1024, 76059036013693764089802192322560),
  (2, 1216944576219100225436835077160960),
  (2, 1216944576219100225436835077160960),
  (32768, 83076749736557242056487941267521536),
  (32768, 9086519502435948349928368576135168),
  (320, 9086519502435948349928368576135168),
  (32768, 155768905756044828855914889876602880),
  (66584576, 155768905756044828855914889876602880),
  (1024, 155768905756044828855914889876602880),
  (32768, 155768905756044828855914889876602880),
  (66584576, 155768905756044828855914889876602880),
  (1024, 155768905756044828855914889876602880),
  (2, 498460498419343452338927647605129216),
  (2, 498460498419343452338927647605129216),
  (1024, 664613997892457936451903530140172288),
  (1024, 1329227995784915872903807060280344576),
  (1024, 2658455991569831745807614120560689152),
  (1024, 18347988927920572092886567162416695527235238206695069463330055197880016507176250225744938359504562141790208),
  (2, 18347988927920572092886567162416695527235238206695069463330055197880016507176250225744938359504562141790208),
  (1024, 21267647932558653966460912964485513216),
  (1024, 42535295865117307932921825928971026432),
  (1024, 85070591730234615865843651857942052864),
  (1024, 1222124120796550491528709902591195531444224),
  (2, 1222124120796550491528709902591195531444224),
  (32768, 18347988927920572092886567162416695527235238206695069463330237885584677553129042546685536279653778011979776),
  (32768, 19055812547572553953948978016179019841536),
  (320, 19055812547572553953948978016179019841536),
  (32768, 18347988927920572092886567162416695527235238206695069463330237885737124053509622978317128103783210170712064),
  (66584576, 18347988927920572092886567162416695527235238206695069463330237885737124053509622978317128103783210170712064),
  (1024, 18347988927920572092886567162416695527235238206695069463330237885737124053509622978317128103783210170712064),
  (32768, 18347988927920572092886567162416695527235238206695069463330237885737124053509622978317128103783210170712064),
  (66584576, 18347988927920572092886567162416695527235238206695069463330237885737124053509622978317128103783210170712064),
  (1024, 18347988927920572092886567162416695527235238206695069463330237885737124053509622978317128103783210170712064),
  (32768, 89202980794122492566142873090593446023921664),
  (32768, 9756576024357147624421876744283658158866432),
  (320, 9756576024357147624421876744283658158866432),
  (32768, 167255588988979673561517887044862711294853120),
  (66584576, 167255588988979673561517887044862711294853120),
  (1024, 167255588988979673561517887044862711294853120),
  (32768, 167255588988979673561517887044862711294853120),
  (66584576, 167255588988979673561517887044862711294853120),
  (1024, 167255588988979673561517887044862711294853120),
  (2, 2676089423823674776984286192717803380717649920),
  (2, 2676089423823674776984286192717803380717649920),
  (32768, 18347988927920572092886567162416695527235238206695069463330237885584677553129042546685536279653778011979776),
  (32768, 19981467697883438334816003572292931909358452736),
  (320, 19981467697883438334816003572292931909358452736),
  (32768, 18347988927920572092886567162416695527235238206695069463330397737326260620635721074714114623109052879601664),
  (66584576, 18347988927920572092886567162416695527235238206695069463330397737326260620635721074714114623109052879601664),
  (1024, 18347988927920572092886567162416695527235238206695069463330397737326260620635721074714114623109052879601664),
  (32768, 18347988927920572092886567162416695527235238206695069463330397737326260620635721074714114623109052879601664),
  (66584576, 18347988927920572092886567162416695527235238206695069463330397737326260620635721074714114623109052879601664),
  (1024, 18347988927920572092886567162416695527235238206695069463330397737326260620635721074714114623109052879601664),
  (2, 18347988927920572092886567162416695527235238206695069463330237885584677553129042546685536279653778011979776),
  (2, 2192252455996354377305527249074424529483898814464),
  (2, 2192252455996354377305527249074424529483898814464),
  (32768, 2923003274661805836407369665432566039311865085952),
  (66584576, 5846006549323611672814739330865132078623730171904),
  (66584576, 11692013098647223345629478661730264157247460343808),
  (128, 23384026197294446691258957323460528314494920687616),
  (2, 514448576340477827207697061116131622918888255127552),
  (2, 514448576340477827207697061116131622918888255127552),
  (1024, 187072209578355573530071658587684226515959365500928),
  (2, 8979466059761067529443439612208842872766049544044544),
  (1024, 748288838313422294120286634350736906063837462003712),
  (1024, 1496577676626844588240573268701473812127674924007424),
  (2, 8979466059761067529443439612208842872766049544044544),
  (2, 8979466059761067529443439612208842872766049544044544),
  (32768, 11972621413014756705924586149611790497021399392059392),
  (66584576, 23945242826029513411849172299223580994042798784118784),
  (66584576, 47890485652059026823698344598447161988085597568237568),
  (2, 1628276512170006912005743716347203507594910317320077312),
  (1024, 191561942608236107294793378393788647952342390272950272),
  (1024, 383123885216472214589586756787577295904684780545900544),
  (1024, 766247770432944429179173513575154591809369561091801088),
  (1024, 6295491681877071430136089587533470126305780313930237739008),
  (1024, 3064991081731777716716694054300618367237478244367204352),
  (1024, 6295491681877071430136089587533470126305780313930237739008),
  (2, 6295491681877071430136089587533470126305780313930237739008),
  (1024, 24519928653854221733733552434404946937899825954937634816),
  (1024, 49039857307708443467467104868809893875799651909875269632),
  (2048, 98079714615416886934934209737619787751599303819750539264),
  (1024, 196159429230833773869868419475239575503198607639501078528),
  (1024, 392318858461667547739736838950479151006397215279002157056),
  (2048, 784637716923335095479473677900958302012794430558004314112),
  (1024, 1569275433846670190958947355801916604025588861116008628224),
  (1024, 3138550867693340381917894711603833208051177722232017256448),
  (2, 18347988927920572092886567162416695527666600239028472678126514743750752602685204876088121989424212776845312),
  (1024, 12554203470773361527671578846415332832204710888928069025792),
  (1024, 25108406941546723055343157692830665664409421777856138051584),
  (2048, 50216813883093446110686315385661331328818843555712276103168),
  (1024, 100433627766186892221372630771322662657637687111424552206336),
  (1024, 200867255532373784442745261542645325315275374222849104412672),
  (2, 18347988927920572092886567162416695527666600239028472678126514743750752602685204876088121989424212776845312),
  (2, 18347988927920572092886567162416695527666600239028472678126514743750752602685204876088121989424212776845312),
  (32768, 18347988927920572092886567162416695527666597353369479700044727439272325281042461396842095903973978784399360),
  (32768, 44994265239251727715174938585552552870621683825918199388438528),
  (320, 44994265239251727715174938585552552870621683825918199388438528),
  (32768, 18347988927920572092886567162416695527666597713323601614058549160671833965462884361815566511319573891907584),
  (66584576, 18347988927920572092886567162416695527666597713323601614058549160671833965462884361815566511319573891907584),
  (1024, 18347988927920572092886567162416695527666597713323601614058549160671833965462884361815566511319573891907584),
  (32768, 18347988927920572092886567162416695527666597713323601614058549160671833965462884361815566511319573891907584),
  (66584576, 18347988927920572092886567162416695527666597713323601614058549160671833965462884361815566511319573891907584),
  (1024, 18347988927920572092886567162416695527666597713323601614058549160671833965462884361815566511319573891907584),
  (32768, 210624583337114373395836055367340864637790190801098222508621955072),
  (32768, 23037063802496884590169568555802907069758302118870118086880526336),
  (320, 23037063802496884590169568555802907069758302118870118086880526336),
  (32768, 394921093757089450117192603813764121195856607752059167203666165760),
  (66584576, 394921093757089450117192603813764121195856607752059167203666165760),
  (1024, 394921093757089450117192603813764121195856607752059167203666165760),
  (32768, 394921093757089450117192603813764121195856607752059167203666165760),
  (66584576, 394921093757089450117192603813764121195856607752059167203666165760),
  (1024, 394921093757089450117192603813764121195856607752059167203666165760),
  (2, 6318737500113431201875081661020225939133705724032946675258658652160),
  (2, 6318737500113431201875081661020225939133705724032946675258658652160),
  (32768, 18347988927920572092886567162416695527666597353369479700044727439272325281042461396842095903973978784399360),
  (32768, 47179906667513619640667276402284353678865002739446001841931317936128),
  (320, 47179906667513619640667276402284353678865002739446001841931317936128),
  (32768, 18347988927920572092886567162416695528044036606709588657170065650490600110473381418757663918709429327888384),
  (66584576, 18347988927920572092886567162416695528044036606709588657170065650490600110473381418757663918709429327888384),
  (1024, 18347988927920572092886567162416695528044036606709588657170065650490600110473381418757663918709429327888384),
  (32768, 18347988927920572092886567162416695528044036606709588657170065650490600110473381418757663918709429327888384),
  (66584576, 18347988927920572092886567162416695528044036606709588657170065650490600110473381418757663918709429327888384),
  (1024, 18347988927920572092886567162416695528044036606709588657170065650490600110473381418757663918709429327888384),
  (2, 18347988927920572092886567162416695527666597353369479700044727439272325281042461396842095903973978784399360),
  (2, 5176309760092922840576066896707769089338331729127789916371893167849472),
  (2, 5176309760092922840576066896707769089338331729127789916371893167849472),
  (16777216, 6901746346790563787434755862277025452451108972170386555162524223799296),
  (1048576, 13803492693581127574869511724554050904902217944340773110325048447598592),
  (4194304, 27606985387162255149739023449108101809804435888681546220650096895197184),
  (8388608, 55213970774324510299478046898216203619608871777363092441300193790394368),
  (33554432, 110427941548649020598956093796432407239217743554726184882600387580788736),
  (1048576, 220855883097298041197912187592864814478435487109452369765200775161577472),
  (2, 441711766194596082395824375185729628956870974218904739530401550323154944),
  (2097152, 883423532389192164791648750371459257913741948437809479060803100646309888),
  (16777216, 1766847064778384329583297500742918515827483896875618958121606201292619776),
  (8388608, 3533694129556768659166595001485837031654967793751237916243212402585239552),
  (4194304, 7067388259113537318333190002971674063309935587502475832486424805170479104),
  (2, 42404329554681223909999140017830044379859613525014854994918548831022874624),
  (66881280, 42404329554681223909999140017830044379859613525014854994918548831022874624),
  (4, 18347988927920572092886567162416695526372519913346248989900710715095383008707878464560148424881005492436992),
  (2, 339234636437449791279993120142640355038876908200118839959348390648182996992),
  (2, 339234636437449791279993120142640355038876908200118839959348390648182996992),
  (32768, 452312848583266388373324160190187140051835877600158453279131187530910662656),
  (66584576, 904625697166532776746648320380374280103671755200316906558262375061821325312),
  (66584576, 1809251394333065553493296640760748560207343510400633813116524750123642650624),
  (2, 10855508365998393320959779844564491361244061062403802878699148500741855903744),
  (2, 10855508365998393320959779844564491361244061062403802878699148500741855903744),
  (32768, 14474011154664524427946373126085988481658748083205070504932198000989141204992),
  (66584576, 28948022309329048855892746252171976963317496166410141009864396001978282409984),
  (66584576, 57896044618658097711785492504343953926634992332820282019728792003956564819968),
  (2, 1273712981610478149659280835095566986385969831322046204434033424087044426039296),
  (2, 1273712981610478149659280835095566986385969831322046204434033424087044426039296),
  (1024, 463168356949264781694283940034751631413079938662562256157830336031652518559744),
  (2, 7610782441390318892800473702651038807379729552103222993185468081672114184973713408),
  (1024, 1852673427797059126777135760139006525652319754650249024631321344126610074238976),
  (1024, 3705346855594118253554271520278013051304639509300498049262642688253220148477952),
  (2, 7610782441390318892800473702651038807379729552103222993185468081672114184973713408),
  (2, 7610782441390318892800473702651038807379729552103222993185468081672114184973713408),
  (1024, 29642774844752946028434172162224104410437116074403984394101141506025761187823616),
  (1024, 59285549689505892056868344324448208820874232148807968788202283012051522375647232),
  (2048, 118571099379011784113736688648896417641748464297615937576404566024103044751294464),
  (1024, 237142198758023568227473377297792835283496928595231875152809132048206089502588928),
  (1024, 474284397516047136454946754595585670566993857190463750305618264096412179005177856),
  (2048, 948568795032094272909893509191171341133987714380927500611236528192824358010355712),
  (1024, 1897137590064188545819787018382342682267975428761855001222473056385648716020711424),
  (1024, 3794275180128377091639574036764685364535950857523710002444946112771297432041422848),
  (2, 139756971234166739489564995981690073079499100858927691092957891320495365254916853982817316503552),
  (1024, 15177100720513508366558296147058741458143803430094840009779784451085189728165691392),
  (1024, 30354201441027016733116592294117482916287606860189680019559568902170379456331382784),
  (2048, 60708402882054033466233184588234965832575213720379360039119137804340758912662765568),
  (1024, 121416805764108066932466369176469931665150427440758720078238275608681517825325531136),
  (1024, 242833611528216133864932738352939863330300854881517440156476551217363035650651062272),
  (2, 139756971234166739489564995981690073079499100858927691092957891320495365254916853982817316503552),
  (2, 139756971234166739489564995981690073079499100858927691092957891320495365254916853982817316503552),
  (32768, 497323236409786642155382248146820840100456150797347717440463976893159497012533375533056),
  (32768, 54394728982320413985744933391058529385987391493459906595050747472689319985745837948928),
  (320, 54394728982320413985744933391058529385987391493459906595050747472689319985745837948928),
  (32768, 932481068268349954041341715275289075188355282745026970200869956674674056898500079124480),
  (66584576, 932481068268349954041341715275289075188355282745026970200869956674674056898500079124480),
  (1024, 932481068268349954041341715275289075188355282745026970200869956674674056898500079124480),
  (32768, 932481068268349954041341715275289075188355282745026970200869956674674056898500079124480),
  (66584576, 932481068268349954041341715275289075188355282745026970200869956674674056898500079124480),
  (1024, 932481068268349954041341715275289075188355282745026970200869956674674056898500079124480),
  (2, 6257774519299541257016665154793609710750110905341756161954223460416659352872970361395396739072),
  (32768, 509258994083621521567111422102344540262867098416484062659035112338595324940834176545849344),
  (32768, 55700202477896103921402811792443934091251088889302944353331965412033863665403738059702272),
  (320, 55700202477896103921402811792443934091251088889302944353331965412033863665403738059702272),
  (32768, 954860613906790352938333916441896012992875809530907617485690835634866234264064081023467520),
  (66584576, 954860613906790352938333916441896012992875809530907617485690835634866234264064081023467520),
  (1024, 954860613906790352938333916441896012992875809530907617485690835634866234264064081023467520),
  (32768, 954860613906790352938333916441896012992875809530907617485690835634866234264064081023467520),
  (66584576, 954860613906790352938333916441896012992875809530907617485690835634866234264064081023467520),
  (1024, 954860613906790352938333916441896012992875809530907617485690835634866234264064081023467520),
  (2, 15277769822508645647013342663070336207886012952494521879771053370157859748225025296375480320),
  (2, 15277769822508645647013342663070336207886012952494521879771053370157859748225025296375480320),
  (32768, 1042962419883256876169444192465601618458351817556959360325703910069443225478828393565899456512),
  (32768, 114074014674731220831032958550925177018882230045292430035623865163845352786746855546270253056),
  (320, 114074014674731220831032958550925177018882230045292430035623865163845352786746855546270253056),
  (32768, 1955554537281106642817707860873003034609409657919298800610694831380206047772803237936061480960),
  (66584576, 1955554537281106642817707860873003034609409657919298800610694831380206047772803237936061480960),
  (1024, 1955554537281106642817707860873003034609409657919298800610694831380206047772803237936061480960),
  (32768, 1955554537281106642817707860873003034609409657919298800610694831380206047772803237936061480960),
  (66584576, 1955554537281106642817707860873003034609409657919298800610694831380206047772803237936061480960),
  (1024, 1955554537281106642817707860873003034609409657919298800610694831380206047772803237936061480960),
  (2, 6257774519299541257016665154793609710750110905341756161954223460416659352872970361395396739072),
  (2, 6257774519299541257016665154793609710750110905341756161954223460416659352872970361395396739072),
  (1024, 8343699359066055009355553539724812947666814540455674882605631280555545803830627148527195652096),
  (1024, 16687398718132110018711107079449625895333629080911349765211262561111091607661254297054391304192),
  (1024, 33374797436264220037422214158899251790667258161822699530422525122222183215322508594108782608384),
  (1024, 4586997232046892618094170230679018309910928481917896763798823077834690802421413982570682123408468938326016),
  (2, 4586997232046892618094170230679018309910928481917896763798823077834690802421413982570682123408468938326016),
  (1024, 266998379490113760299377713271194014325338065294581596243380200977777465722580068752870260867072),
  (1024, 533996758980227520598755426542388028650676130589163192486760401955554931445160137505740521734144),
  (1024, 1067993517960455041197510853084776057301352261178326384973520803911109862890320275011481043468288),
  (1024, 15342794879019897121843440915415892839191226584087836846529599868987004290282341070814936670465425408),
  (2, 15342794879019897121843440915415892839191226584087836846529599868987004290282341070814936670465425408),
  (32768, 6880495847970214534832462685906260822389694967504843371212766518160768628265454424210055659330377059663872),
  (32768, 239230548023141929228242431090989836835502906503945110234068660076088609287431741602571753736896512),
  (320, 239230548023141929228242431090989836835502906503945110234068660076088609287431741602571753736896512),
  (32768, 6880497761814598719967896511845709550308389651528095402773648390710049236974328723663988479904406954835968),
  (66584576, 6880497761814598719967896511845709550308389651528095402773648390710049236974328723663988479904406954835968),
  (1024, 6880497761814598719967896511845709550308389651528095402773648390710049236974328723663988479904406954835968),
  (32768, 6880497761814598719967896511845709550308389651528095402773648390710049236974328723663988479904406954835968),
  (66584576, 6880497761814598719967896511845709550308389651528095402773648390710049236974328723663988479904406954835968),
  (1024, 6880497761814598719967896511845709550308389651528095402773648390710049236974328723663988479904406954835968),
  (32768, 1119872371088902105278721140284222139060822748617324767449994550481895935590080472690438746635803557888),
  (32768, 122486040587848667764860124718586796459777488130019896439843153958957367955165051700516737913291014144),
  (320, 122486040587848667764860124718586796459777488130019896439843153958957367955165051700516737913291014144),
  (32768, 2099760695791691447397602138032916510739042653657483938968739782153554879231400886294572649942131671040),
  (66584576, 2099760695791691447397602138032916510739042653657483938968739782153554879231400886294572649942131671040),
  (1024, 2099760695791691447397602138032916510739042653657483938968739782153554879231400886294572649942131671040),
  (32768, 2099760695791691447397602138032916510739042653657483938968739782153554879231400886294572649942131671040),
  (66584576, 2099760695791691447397602138032916510739042653657483938968739782153554879231400886294572649942131671040),
  (1024, 2099760695791691447397602138032916510739042653657483938968739782153554879231400886294572649942131671040),
  (2, 33596171132667063158361634208526664171824682458519743023499836514456878067702414180713162399074106736640),
  (2, 33596171132667063158361634208526664171824682458519743023499836514456878067702414180713162399074106736640),
  (32768, 6880495847970214534832462685906260822389694967504843371212766518160768628265454424210055659330377059663872),
  (32768, 250851411123914071582433535423665759149624295690280747908798779307944689572178025882658279246419996966912),
  (320, 250851411123914071582433535423665759149624295690280747908798779307944689572178025882658279246419996966912),
  (32768, 8887307136961527107491930969295586895586689333027089354483156752624326144842878631271321893301737035399168),
  (66584576, 8887307136961527107491930969295586895586689333027089354483156752624326144842878631271321893301737035399168),
  (1024, 8887307136961527107491930969295586895586689333027089354483156752624326144842878631271321893301737035399168),
  (32768, 8887307136961527107491930969295586895586689333027089354483156752624326144842878631271321893301737035399168),
  (66584576, 8887307136961527107491930969295586895586689333027089354483156752624326144842878631271321893301737035399168),
  (1024, 8887307136961527107491930969295586895586689333027089354483156752624326144842878631271321893301737035399168),
  (2, 6880495847970214534832462685906260822389694967504843371212766518160768628265454424210055659330377059663872),
  (8, 9173994463960286046443283581208347763186259956673124494950355357547691504353939232280074212440502746218496),
  (4, 18347988927920572092886567162416695526372519913346248989900710715095383008707878464560148424881005492436992)]

/-- Where it begins. -/
def fromStart : Nat := 56539106072908298546665520389148801839205214250941014838968908754821578855

theorem from_read : fromcheckFile.read = .ok fromAuto := by decide +kernel

theorem from_rows : RowsOk fromAuto fromGroups fromClosure fromRows := ⟨by decide +kernel, by decide +kernel, by decide +kernel, by decide +kernel⟩

theorem from_tables : TablesOk fromAuto fromGroups fromReps fromTables := ⟨rfl, by decide +kernel, by decide +kernel, by decide +kernel, by decide +kernel⟩

/-- The states with `FROMCHECK_PASS`. -/
def fromPass : Nat := 157968437502835780048304289218211608359400929070273162017849212928

/-- One pair. -/
abbrev FromIn (i j : Nat) : Prop := PairsIn Nat.beq (stepSet (asRows fromTable)) fromRows fromTables (agree [(fromPass, 353)]) fromPairs 137 26 i j

theorem from_pairs0 : FromIn 0 (0 + fromNext0.length) := checkPairs_in (by decide +kernel)

theorem from_pairs1 : FromIn 16 (16 + fromNext1.length) := checkPairs_in (by decide +kernel)

theorem from_pairs2 : FromIn 32 (32 + fromNext2.length) := checkPairs_in (by decide +kernel)

theorem from_pairs3 : FromIn 48 (48 + fromNext3.length) := checkPairs_in (by decide +kernel)

theorem from_pairs4 : FromIn 64 (64 + fromNext4.length) := checkPairs_in (by decide +kernel)

theorem from_pairs5 : FromIn 80 (80 + fromNext5.length) := checkPairs_in (by decide +kernel)

theorem from_pairs6 : FromIn 96 (96 + fromNext6.length) := checkPairs_in (by decide +kernel)

theorem from_pairs7 : FromIn 112 (112 + fromNext7.length) := checkPairs_in (by decide +kernel)

theorem from_pairs8 : FromIn 128 (128 + fromNext8.length) := checkPairs_in (by decide +kernel)

theorem from_pairs : PairsOk Nat.beq (stepSet (asRows fromTable)) fromRows fromTables (agree [(fromPass, 353)]) fromPairs 137 26 (fromClosure.get 0).1 fromStart :=
  ⟨from_pairs0.append (from_pairs1.append (from_pairs2.append (from_pairs3.append (from_pairs4.append (from_pairs5.append (from_pairs6.append (from_pairs7.append (from_pairs8)))))))), by decide +kernel⟩

theorem from_table : tableOf [(fromMasks.bLine, 353)] 0 = fromTable := by decide +kernel

theorem from_start : startsOf [(fromMasks.bLine, 353)] 0 = fromStart := by decide +kernel

/-- The group of a character. -/
def fromGroup (c : UInt8) : Nat := fromGroups.of (.chr c)


theorem from_fit_digit : From.DIGIT = (RB.cls fromMasks.digit).toRE fromGroup := congrArg RE.cls (funext (forall_byte (by decide +kernel)))

theorem from_fit_lower : From.LOWER = (RB.cls fromMasks.lower).toRE fromGroup := congrArg RE.cls (funext (forall_byte (by decide +kernel)))

theorem from_fit_upper : From.UPPER = (RB.cls fromMasks.upper).toRE fromGroup := congrArg RE.cls (funext (forall_byte (by decide +kernel)))

theorem from_fit_white : From.WHITE = (RB.cls fromMasks.white).toRE fromGroup := congrArg RE.cls (funext (forall_byte (by decide +kernel)))

theorem from_fit_plusminus : From.PLUSMINUS = (RB.cls fromMasks.plusminus).toRE fromGroup := congrArg RE.cls (funext (forall_byte (by decide +kernel)))

theorem from_fit_colon : From.COLON = (RB.cls fromMasks.colon).toRE fromGroup := congrArg RE.cls (funext (forall_byte (by decide +kernel)))

theorem from_fit_email : From.EMAIL = (RB.cls fromMasks.email).toRE fromGroup := congrArg RE.cls (funext (forall_byte (by decide +kernel)))

theorem from_fit_domain : From.DOMAIN = (RB.cls fromMasks.domain).toRE fromGroup := congrArg RE.cls (funext (forall_byte (by decide +kernel)))

theorem from_fit_dquote : From.DQUOTE = (RB.cls fromMasks.dquote).toRE fromGroup := congrArg RE.cls (funext (forall_byte (by decide +kernel)))

theorem from_fit_quoted : RE.oneOf "@:<>" = (RB.cls fromMasks.quoted).toRE fromGroup := congrArg RE.cls (funext (forall_byte (by decide +kernel)))

theorem from_fit_ats : RE.oneOf "@" = (RB.cls fromMasks.ats).toRE fromGroup := congrArg RE.cls (funext (forall_byte (by decide +kernel)))

theorem from_fit_lsq : RE.oneOf "[" = (RB.cls fromMasks.lsq).toRE fromGroup := congrArg RE.cls (funext (forall_byte (by decide +kernel)))

theorem from_fit_rsq : RE.oneOf "]" = (RB.cls fromMasks.rsq).toRE fromGroup := congrArg RE.cls (funext (forall_byte (by decide +kernel)))

theorem from_fit_dot : RE.oneOf "." = (RB.cls fromMasks.dot).toRE fromGroup := congrArg RE.cls (funext (forall_byte (by decide +kernel)))

theorem from_fit_lt : RE.oneOf "<" = (RB.cls fromMasks.lt).toRE fromGroup := congrArg RE.cls (funext (forall_byte (by decide +kernel)))

theorem from_fit_gt : RE.oneOf ">" = (RB.cls fromMasks.gt).toRE fromGroup := congrArg RE.cls (funext (forall_byte (by decide +kernel)))

theorem from_fit_comma : RE.oneOf "," = (RB.cls fromMasks.comma).toRE fromGroup := congrArg RE.cls (funext (forall_byte (by decide +kernel)))

theorem from_fit_r : RE.oneOf "r" = (RB.cls fromMasks.r).toRE fromGroup := congrArg RE.cls (funext (forall_byte (by decide +kernel)))

theorem from_fit_e : RE.oneOf "e" = (RB.cls fromMasks.e).toRE fromGroup := congrArg RE.cls (funext (forall_byte (by decide +kernel)))

theorem from_fit_m : RE.oneOf "m" = (RB.cls fromMasks.m).toRE fromGroup := congrArg RE.cls (funext (forall_byte (by decide +kernel)))

theorem from_fit_o : RE.oneOf "o" = (RB.cls fromMasks.o).toRE fromGroup := congrArg RE.cls (funext (forall_byte (by decide +kernel)))

theorem from_fit_t : RE.oneOf "t" = (RB.cls fromMasks.t).toRE fromGroup := congrArg RE.cls (funext (forall_byte (by decide +kernel)))

theorem from_fit_f : RE.oneOf "f" = (RB.cls fromMasks.f).toRE fromGroup := congrArg RE.cls (funext (forall_byte (by decide +kernel)))

theorem from_fit_lf : RE.chr 0x0a = (RB.cls fromMasks.lf).toRE fromGroup := congrArg RE.cls (funext (forall_byte (by decide +kernel)))

theorem from_fit_cr : RE.chr 0x0d = (RB.cls fromMasks.cr).toRE fromGroup := congrArg RE.cls (funext (forall_byte (by decide +kernel)))

theorem from_fit : fromMasks.Fit fromGroup :=
  ⟨from_fit_digit, from_fit_lower, from_fit_upper, from_fit_white, from_fit_plusminus, from_fit_colon, from_fit_email, from_fit_domain, from_fit_dquote, from_fit_quoted, from_fit_ats, from_fit_lsq, from_fit_rsq, from_fit_dot, from_fit_lt, from_fit_gt, from_fit_comma, from_fit_r, from_fit_e, from_fit_m, from_fit_o, from_fit_t, from_fit_f, from_fit_lf, from_fit_cr⟩

end Mairix
