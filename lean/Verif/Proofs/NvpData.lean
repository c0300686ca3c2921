import Verif.Model.NfaFiles
import Verif.Model.Nvp
import Verif.Proofs.NfaScan
import Verif.Proofs.Nvp

/-!
# The lists of the certificate for nvp.nfa

The lists were computed by a program; that they are right is checked by the kernel in the other modules.
-/

namespace Mairix
open Spec

/-- The states of nvp.nfa. -/
def nvpStates0 : List IState := [
  ⟨[.eps 470, .eps 234, .eps 2], []⟩,
  ⟨[.eps 5], []⟩,
  ⟨[.eps 3, .cls 8 2], []⟩,
  ⟨[.eps 1], []⟩,
  ⟨[.eps 231], []⟩,
  ⟨[.eps 6, .eps 209, .eps 217], []⟩,
  ⟨[.eps 76, .eps 58, .eps 42, .eps 23, .eps 8], []⟩,
  ⟨[.eps 11], []⟩,
  ⟨[.eps 9, .cls 8 8], []⟩,
  ⟨[.eps 7], []⟩,
  ⟨[.eps 20], []⟩,
  ⟨[.cls 2 12], []⟩,
  ⟨[.eps 13, .eps 14, .cls 2 12, .cls 9 15, .eps 18], []⟩,
  ⟨[], [bs "COPY_TO_NAME"]⟩,
  ⟨[], [bs "GOT_NAME"]⟩,
  ⟨[.eps 16, .eps 17, .cls 10 15, .cls 2 12, .eps 18], []⟩,
  ⟨[], [bs "COPY_TO_NAME"]⟩,
  ⟨[], [bs "GOT_NAME_TRAILING_SPACE"]⟩,
  ⟨[.eps 10], []⟩,
  ⟨[.cls 15 93], []⟩,
  ⟨[.eps 21, .cls 8 20], []⟩,
  ⟨[.eps 19], []⟩,
  ⟨[.eps 26], []⟩,
  ⟨[.eps 24, .cls 8 23], []⟩,
  ⟨[.eps 22], []⟩,
  ⟨[.cls 16 34], []⟩,
  ⟨[.cls 2 27], []⟩,
  ⟨[.eps 28, .eps 29, .cls 2 27, .cls 9 30, .eps 33], []⟩,
  ⟨[], [bs "COPY_TO_NAME"]⟩,
  ⟨[], [bs "GOT_NAME"]⟩,
  ⟨[.eps 31, .eps 32, .cls 10 30, .cls 2 27, .eps 33], []⟩,
  ⟨[], [bs "COPY_TO_NAME"]⟩,
  ⟨[], [bs "GOT_NAME_TRAILING_SPACE"]⟩,
  ⟨[.eps 25], []⟩,
  ⟨[.eps 36], []⟩,
  ⟨[.eps 39], []⟩,
  ⟨[.cls 13 37, .cls 14 36], []⟩,
  ⟨[.eps 35], []⟩,
  ⟨[.cls 17 128], []⟩,
  ⟨[.eps 40, .cls 8 39], []⟩]

/-- The states of nvp.nfa. -/
def nvpStates1 : List IState := [
  ⟨[.eps 38], []⟩,
  ⟨[.eps 45], []⟩,
  ⟨[.eps 43, .cls 8 42], []⟩,
  ⟨[.eps 41], []⟩,
  ⟨[.cls 18 53], []⟩,
  ⟨[.cls 2 46], []⟩,
  ⟨[.eps 47, .eps 48, .cls 2 46, .cls 9 49, .eps 52], []⟩,
  ⟨[], [bs "COPY_TO_NAME"]⟩,
  ⟨[], [bs "GOT_NAME"]⟩,
  ⟨[.eps 50, .eps 51, .cls 10 49, .cls 2 46, .eps 52], []⟩,
  ⟨[], [bs "COPY_TO_NAME"]⟩,
  ⟨[], [bs "GOT_NAME_TRAILING_SPACE"]⟩,
  ⟨[.eps 44], []⟩,
  ⟨[.eps 55], []⟩,
  ⟨[.cls 19 159], []⟩,
  ⟨[.eps 56, .cls 8 55], []⟩,
  ⟨[.eps 54], []⟩,
  ⟨[.eps 61], []⟩,
  ⟨[.eps 59, .cls 8 58], []⟩,
  ⟨[.eps 57], []⟩,
  ⟨[.cls 20 69], []⟩,
  ⟨[.cls 2 62], []⟩,
  ⟨[.eps 63, .eps 64, .cls 2 62, .cls 9 65, .eps 68], []⟩,
  ⟨[], [bs "COPY_TO_NAME"]⟩,
  ⟨[], [bs "GOT_NAME"]⟩,
  ⟨[.eps 66, .eps 67, .cls 10 65, .cls 2 62, .eps 68], []⟩,
  ⟨[], [bs "COPY_TO_NAME"]⟩,
  ⟨[], [bs "GOT_NAME_TRAILING_SPACE"]⟩,
  ⟨[.eps 60], []⟩,
  ⟨[.cls 21 70], []⟩,
  ⟨[.cls 22 71], []⟩,
  ⟨[.eps 73], []⟩,
  ⟨[.cls 23 159], []⟩,
  ⟨[.eps 74, .cls 8 73], []⟩,
  ⟨[.eps 72], []⟩,
  ⟨[.eps 79], []⟩,
  ⟨[.eps 77, .cls 8 76], []⟩,
  ⟨[.eps 75], []⟩,
  ⟨[.cls 24 87], []⟩,
  ⟨[.cls 2 80], []⟩]

/-- The states of nvp.nfa. -/
def nvpStates2 : List IState := [
  ⟨[.eps 81, .eps 82, .cls 2 80, .cls 9 83, .eps 86], []⟩,
  ⟨[], [bs "COPY_TO_NAME"]⟩,
  ⟨[], [bs "GOT_NAME"]⟩,
  ⟨[.eps 84, .eps 85, .cls 10 83, .cls 2 80, .eps 86], []⟩,
  ⟨[], [bs "COPY_TO_NAME"]⟩,
  ⟨[], [bs "GOT_NAME_TRAILING_SPACE"]⟩,
  ⟨[.eps 78], []⟩,
  ⟨[.cls 25 88], []⟩,
  ⟨[.cls 26 89], []⟩,
  ⟨[.eps 91], []⟩,
  ⟨[.cls 27 189], []⟩,
  ⟨[.eps 92, .cls 8 91], []⟩,
  ⟨[.eps 90], []⟩,
  ⟨[.eps 125, .eps 115, .eps 95], []⟩,
  ⟨[.eps 98], []⟩,
  ⟨[.eps 96, .cls 8 95], []⟩,
  ⟨[.eps 94], []⟩,
  ⟨[.eps 112], []⟩,
  ⟨[.cls 11 99], []⟩,
  ⟨[.eps 100, .cls 1 104, .cls 0 104], []⟩,
  ⟨[.cls 6 102, .cls 4 101], []⟩,
  ⟨[.cls 5 103], []⟩,
  ⟨[.cls 7 103], []⟩,
  ⟨[.eps 104], []⟩,
  ⟨[.eps 105, .eps 106, .cls 1 104, .cls 0 104, .eps 110], []⟩,
  ⟨[], [bs "COPY_TO_VALUE"]⟩,
  ⟨[.cls 6 108, .cls 4 107], []⟩,
  ⟨[.cls 5 109], []⟩,
  ⟨[.cls 7 109], []⟩,
  ⟨[.eps 104], []⟩,
  ⟨[.cls 12 111], []⟩,
  ⟨[.eps 97], []⟩,
  ⟨[.eps 113, .cls 8 112], []⟩,
  ⟨[.eps 200], []⟩,
  ⟨[.eps 118], []⟩,
  ⟨[.eps 116, .cls 8 115], []⟩,
  ⟨[.eps 114], []⟩,
  ⟨[.eps 122], []⟩,
  ⟨[.cls 0 119], []⟩,
  ⟨[.eps 120, .eps 121, .cls 0 119], []⟩]

/-- The states of nvp.nfa. -/
def nvpStates3 : List IState := [
  ⟨[], [bs "COPY_TO_VALUE"]⟩,
  ⟨[.eps 117], []⟩,
  ⟨[.eps 123, .cls 8 122], []⟩,
  ⟨[.eps 200], []⟩,
  ⟨[.eps 127], []⟩,
  ⟨[.eps 126, .cls 8 125], []⟩,
  ⟨[.eps 124], []⟩,
  ⟨[.token 0 200], []⟩,
  ⟨[.eps 150, .eps 130], []⟩,
  ⟨[.eps 133], []⟩,
  ⟨[.eps 131, .cls 8 130], []⟩,
  ⟨[.eps 129], []⟩,
  ⟨[.eps 147], []⟩,
  ⟨[.cls 11 134], []⟩,
  ⟨[.eps 135, .cls 1 139, .cls 0 139], []⟩,
  ⟨[.cls 6 137, .cls 4 136], []⟩,
  ⟨[.cls 5 138], []⟩,
  ⟨[.cls 7 138], []⟩,
  ⟨[.eps 139], []⟩,
  ⟨[.eps 140, .eps 141, .cls 1 139, .cls 0 139, .eps 145], []⟩,
  ⟨[], [bs "COPY_TO_VALUE"]⟩,
  ⟨[.cls 6 143, .cls 4 142], []⟩,
  ⟨[.cls 5 144], []⟩,
  ⟨[.cls 7 144], []⟩,
  ⟨[.eps 139], []⟩,
  ⟨[.cls 12 146], []⟩,
  ⟨[.eps 132], []⟩,
  ⟨[.eps 148, .cls 8 147], []⟩,
  ⟨[.eps 202], []⟩,
  ⟨[.eps 153], []⟩,
  ⟨[.eps 151, .cls 8 150], []⟩,
  ⟨[.eps 149], []⟩,
  ⟨[.eps 157], []⟩,
  ⟨[.cls 0 154], []⟩,
  ⟨[.eps 155, .eps 156, .cls 0 154], []⟩,
  ⟨[], [bs "COPY_TO_VALUE"]⟩,
  ⟨[.eps 152], []⟩,
  ⟨[.eps 158, .cls 8 157], []⟩,
  ⟨[.eps 202], []⟩,
  ⟨[.eps 173, .eps 161], []⟩]

/-- The states of nvp.nfa. -/
def nvpStates4 : List IState := [
  ⟨[.cls 28 163], []⟩,
  ⟨[.eps 162, .cls 8 161], []⟩,
  ⟨[.eps 160], []⟩,
  ⟨[.cls 29 164], []⟩,
  ⟨[.eps 166], []⟩,
  ⟨[.eps 170], []⟩,
  ⟨[.cls 0 167], []⟩,
  ⟨[.eps 168, .eps 169, .cls 0 167], []⟩,
  ⟨[], [bs "COPY_TO_VALUE"]⟩,
  ⟨[.eps 165], []⟩,
  ⟨[.eps 171, .cls 8 170], []⟩,
  ⟨[.eps 204], []⟩,
  ⟨[.eps 176], []⟩,
  ⟨[.eps 174, .cls 8 173], []⟩,
  ⟨[.eps 172], []⟩,
  ⟨[.cls 30 180], []⟩,
  ⟨[.cls 3 177, .cls 2 177], []⟩,
  ⟨[.eps 178, .cls 3 177, .cls 2 177, .eps 179], []⟩,
  ⟨[], [bs "COPY_TO_MINOR"]⟩,
  ⟨[.eps 175], []⟩,
  ⟨[.cls 31 181], []⟩,
  ⟨[.eps 183], []⟩,
  ⟨[.eps 187], []⟩,
  ⟨[.cls 0 184], []⟩,
  ⟨[.eps 185, .eps 186, .cls 0 184], []⟩,
  ⟨[], [bs "COPY_TO_VALUE"]⟩,
  ⟨[.eps 182], []⟩,
  ⟨[.eps 188, .cls 8 187], []⟩,
  ⟨[.eps 204], []⟩,
  ⟨[.eps 191], []⟩,
  ⟨[.eps 194], []⟩,
  ⟨[.eps 192, .cls 8 191], []⟩,
  ⟨[.eps 190], []⟩,
  ⟨[.eps 198], []⟩,
  ⟨[.cls 0 195], []⟩,
  ⟨[.eps 196, .eps 197, .cls 0 195], []⟩,
  ⟨[], [bs "COPY_TO_VALUE"]⟩,
  ⟨[.eps 193], []⟩,
  ⟨[.eps 199, .cls 8 198], []⟩,
  ⟨[.eps 206], []⟩]

/-- The states of nvp.nfa. -/
def nvpStates5 : List IState := [
  ⟨[.eps 208, .eps 201], []⟩,
  ⟨[], [bs "GOT_NAMEVALUE"]⟩,
  ⟨[.eps 208, .eps 203], []⟩,
  ⟨[], [bs "GOT_NAMEVALUE_CONT"]⟩,
  ⟨[.eps 208, .eps 205], []⟩,
  ⟨[], [bs "GOT_NAMEVALUE_CSET"]⟩,
  ⟨[.eps 208, .eps 207], []⟩,
  ⟨[], [bs "GOT_NAMEVALUE_CCONT"]⟩,
  ⟨[.eps 229], []⟩,
  ⟨[.cls 2 210], []⟩,
  ⟨[.eps 216, .cls 9 213, .cls 2 210, .eps 212, .eps 211], []⟩,
  ⟨[], [bs "COPY_TO_NAME"]⟩,
  ⟨[], [bs "GOT_NAME"]⟩,
  ⟨[.eps 216, .cls 2 210, .cls 10 213, .eps 215, .eps 214], []⟩,
  ⟨[], [bs "COPY_TO_NAME"]⟩,
  ⟨[], [bs "GOT_NAME_TRAILING_SPACE"]⟩,
  ⟨[.eps 229], []⟩,
  ⟨[.eps 218], []⟩,
  ⟨[.cls 2 219], []⟩,
  ⟨[.cls 2 219, .eps 220], []⟩,
  ⟨[.eps 221], []⟩,
  ⟨[.cls 32 222], []⟩,
  ⟨[.eps 223], []⟩,
  ⟨[.cls 3 224, .cls 2 224], []⟩,
  ⟨[.eps 225, .cls 3 224, .cls 2 224, .eps 226], []⟩,
  ⟨[], [bs "COPY_TO_MINOR"]⟩,
  ⟨[.eps 227], []⟩,
  ⟨[.eps 228, .eps 229], []⟩,
  ⟨[], [bs "GOT_MAJORMINOR"]⟩,
  ⟨[.eps 4], []⟩,
  ⟨[.token 0 703], []⟩,
  ⟨[.eps 232, .cls 8 231], []⟩,
  ⟨[.eps 230], []⟩,
  ⟨[.eps 237], []⟩,
  ⟨[.eps 235, .cls 8 234], []⟩,
  ⟨[.eps 233], []⟩,
  ⟨[.eps 463], []⟩,
  ⟨[.eps 238, .eps 441, .eps 449], []⟩,
  ⟨[.eps 308, .eps 290, .eps 274, .eps 255, .eps 240], []⟩,
  ⟨[.eps 243], []⟩]

/-- The states of nvp.nfa. -/
def nvpStates6 : List IState := [
  ⟨[.eps 241, .cls 8 240], []⟩,
  ⟨[.eps 239], []⟩,
  ⟨[.eps 252], []⟩,
  ⟨[.cls 2 244], []⟩,
  ⟨[.eps 245, .eps 246, .cls 2 244, .cls 9 247, .eps 250], []⟩,
  ⟨[], [bs "COPY_TO_NAME"]⟩,
  ⟨[], [bs "GOT_NAME"]⟩,
  ⟨[.eps 248, .eps 249, .cls 10 247, .cls 2 244, .eps 250], []⟩,
  ⟨[], [bs "COPY_TO_NAME"]⟩,
  ⟨[], [bs "GOT_NAME_TRAILING_SPACE"]⟩,
  ⟨[.eps 242], []⟩,
  ⟨[.cls 15 325], []⟩,
  ⟨[.eps 253, .cls 8 252], []⟩,
  ⟨[.eps 251], []⟩,
  ⟨[.eps 258], []⟩,
  ⟨[.eps 256, .cls 8 255], []⟩,
  ⟨[.eps 254], []⟩,
  ⟨[.cls 16 266], []⟩,
  ⟨[.cls 2 259], []⟩,
  ⟨[.eps 260, .eps 261, .cls 2 259, .cls 9 262, .eps 265], []⟩,
  ⟨[], [bs "COPY_TO_NAME"]⟩,
  ⟨[], [bs "GOT_NAME"]⟩,
  ⟨[.eps 263, .eps 264, .cls 10 262, .cls 2 259, .eps 265], []⟩,
  ⟨[], [bs "COPY_TO_NAME"]⟩,
  ⟨[], [bs "GOT_NAME_TRAILING_SPACE"]⟩,
  ⟨[.eps 257], []⟩,
  ⟨[.eps 268], []⟩,
  ⟨[.eps 271], []⟩,
  ⟨[.cls 13 269, .cls 14 268], []⟩,
  ⟨[.eps 267], []⟩,
  ⟨[.cls 17 360], []⟩,
  ⟨[.eps 272, .cls 8 271], []⟩,
  ⟨[.eps 270], []⟩,
  ⟨[.eps 277], []⟩,
  ⟨[.eps 275, .cls 8 274], []⟩,
  ⟨[.eps 273], []⟩,
  ⟨[.cls 18 285], []⟩,
  ⟨[.cls 2 278], []⟩,
  ⟨[.eps 279, .eps 280, .cls 2 278, .cls 9 281, .eps 284], []⟩,
  ⟨[], [bs "COPY_TO_NAME"]⟩]

/-- The states of nvp.nfa. -/
def nvpStates7 : List IState := [
  ⟨[], [bs "GOT_NAME"]⟩,
  ⟨[.eps 282, .eps 283, .cls 10 281, .cls 2 278, .eps 284], []⟩,
  ⟨[], [bs "COPY_TO_NAME"]⟩,
  ⟨[], [bs "GOT_NAME_TRAILING_SPACE"]⟩,
  ⟨[.eps 276], []⟩,
  ⟨[.eps 287], []⟩,
  ⟨[.cls 19 391], []⟩,
  ⟨[.eps 288, .cls 8 287], []⟩,
  ⟨[.eps 286], []⟩,
  ⟨[.eps 293], []⟩,
  ⟨[.eps 291, .cls 8 290], []⟩,
  ⟨[.eps 289], []⟩,
  ⟨[.cls 20 301], []⟩,
  ⟨[.cls 2 294], []⟩,
  ⟨[.eps 295, .eps 296, .cls 2 294, .cls 9 297, .eps 300], []⟩,
  ⟨[], [bs "COPY_TO_NAME"]⟩,
  ⟨[], [bs "GOT_NAME"]⟩,
  ⟨[.eps 298, .eps 299, .cls 10 297, .cls 2 294, .eps 300], []⟩,
  ⟨[], [bs "COPY_TO_NAME"]⟩,
  ⟨[], [bs "GOT_NAME_TRAILING_SPACE"]⟩,
  ⟨[.eps 292], []⟩,
  ⟨[.cls 21 302], []⟩,
  ⟨[.cls 22 303], []⟩,
  ⟨[.eps 305], []⟩,
  ⟨[.cls 23 391], []⟩,
  ⟨[.eps 306, .cls 8 305], []⟩,
  ⟨[.eps 304], []⟩,
  ⟨[.eps 311], []⟩,
  ⟨[.eps 309, .cls 8 308], []⟩,
  ⟨[.eps 307], []⟩,
  ⟨[.cls 24 319], []⟩,
  ⟨[.cls 2 312], []⟩,
  ⟨[.eps 313, .eps 314, .cls 2 312, .cls 9 315, .eps 318], []⟩,
  ⟨[], [bs "COPY_TO_NAME"]⟩,
  ⟨[], [bs "GOT_NAME"]⟩,
  ⟨[.eps 316, .eps 317, .cls 10 315, .cls 2 312, .eps 318], []⟩,
  ⟨[], [bs "COPY_TO_NAME"]⟩,
  ⟨[], [bs "GOT_NAME_TRAILING_SPACE"]⟩,
  ⟨[.eps 310], []⟩,
  ⟨[.cls 25 320], []⟩]

/-- The states of nvp.nfa. -/
def nvpStates8 : List IState := [
  ⟨[.cls 26 321], []⟩,
  ⟨[.eps 323], []⟩,
  ⟨[.cls 27 421], []⟩,
  ⟨[.eps 324, .cls 8 323], []⟩,
  ⟨[.eps 322], []⟩,
  ⟨[.eps 357, .eps 347, .eps 327], []⟩,
  ⟨[.eps 330], []⟩,
  ⟨[.eps 328, .cls 8 327], []⟩,
  ⟨[.eps 326], []⟩,
  ⟨[.eps 344], []⟩,
  ⟨[.cls 11 331], []⟩,
  ⟨[.eps 332, .cls 1 336, .cls 0 336], []⟩,
  ⟨[.cls 6 334, .cls 4 333], []⟩,
  ⟨[.cls 5 335], []⟩,
  ⟨[.cls 7 335], []⟩,
  ⟨[.eps 336], []⟩,
  ⟨[.eps 337, .eps 338, .cls 1 336, .cls 0 336, .eps 342], []⟩,
  ⟨[], [bs "COPY_TO_VALUE"]⟩,
  ⟨[.cls 6 340, .cls 4 339], []⟩,
  ⟨[.cls 5 341], []⟩,
  ⟨[.cls 7 341], []⟩,
  ⟨[.eps 336], []⟩,
  ⟨[.cls 12 343], []⟩,
  ⟨[.eps 329], []⟩,
  ⟨[.eps 345, .cls 8 344], []⟩,
  ⟨[.eps 432], []⟩,
  ⟨[.eps 350], []⟩,
  ⟨[.eps 348, .cls 8 347], []⟩,
  ⟨[.eps 346], []⟩,
  ⟨[.eps 354], []⟩,
  ⟨[.cls 0 351], []⟩,
  ⟨[.eps 352, .eps 353, .cls 0 351], []⟩,
  ⟨[], [bs "COPY_TO_VALUE"]⟩,
  ⟨[.eps 349], []⟩,
  ⟨[.eps 355, .cls 8 354], []⟩,
  ⟨[.eps 432], []⟩,
  ⟨[.eps 359], []⟩,
  ⟨[.eps 358, .cls 8 357], []⟩,
  ⟨[.eps 356], []⟩,
  ⟨[.token 0 432], []⟩]

/-- The states of nvp.nfa. -/
def nvpStates9 : List IState := [
  ⟨[.eps 382, .eps 362], []⟩,
  ⟨[.eps 365], []⟩,
  ⟨[.eps 363, .cls 8 362], []⟩,
  ⟨[.eps 361], []⟩,
  ⟨[.eps 379], []⟩,
  ⟨[.cls 11 366], []⟩,
  ⟨[.eps 367, .cls 1 371, .cls 0 371], []⟩,
  ⟨[.cls 6 369, .cls 4 368], []⟩,
  ⟨[.cls 5 370], []⟩,
  ⟨[.cls 7 370], []⟩,
  ⟨[.eps 371], []⟩,
  ⟨[.eps 372, .eps 373, .cls 1 371, .cls 0 371, .eps 377], []⟩,
  ⟨[], [bs "COPY_TO_VALUE"]⟩,
  ⟨[.cls 6 375, .cls 4 374], []⟩,
  ⟨[.cls 5 376], []⟩,
  ⟨[.cls 7 376], []⟩,
  ⟨[.eps 371], []⟩,
  ⟨[.cls 12 378], []⟩,
  ⟨[.eps 364], []⟩,
  ⟨[.eps 380, .cls 8 379], []⟩,
  ⟨[.eps 434], []⟩,
  ⟨[.eps 385], []⟩,
  ⟨[.eps 383, .cls 8 382], []⟩,
  ⟨[.eps 381], []⟩,
  ⟨[.eps 389], []⟩,
  ⟨[.cls 0 386], []⟩,
  ⟨[.eps 387, .eps 388, .cls 0 386], []⟩,
  ⟨[], [bs "COPY_TO_VALUE"]⟩,
  ⟨[.eps 384], []⟩,
  ⟨[.eps 390, .cls 8 389], []⟩,
  ⟨[.eps 434], []⟩,
  ⟨[.eps 405, .eps 393], []⟩,
  ⟨[.cls 28 395], []⟩,
  ⟨[.eps 394, .cls 8 393], []⟩,
  ⟨[.eps 392], []⟩,
  ⟨[.cls 29 396], []⟩,
  ⟨[.eps 398], []⟩,
  ⟨[.eps 402], []⟩,
  ⟨[.cls 0 399], []⟩,
  ⟨[.eps 400, .eps 401, .cls 0 399], []⟩]

/-- The states of nvp.nfa. -/
def nvpStates10 : List IState := [
  ⟨[], [bs "COPY_TO_VALUE"]⟩,
  ⟨[.eps 397], []⟩,
  ⟨[.eps 403, .cls 8 402], []⟩,
  ⟨[.eps 436], []⟩,
  ⟨[.eps 408], []⟩,
  ⟨[.eps 406, .cls 8 405], []⟩,
  ⟨[.eps 404], []⟩,
  ⟨[.cls 30 412], []⟩,
  ⟨[.cls 3 409, .cls 2 409], []⟩,
  ⟨[.eps 410, .cls 3 409, .cls 2 409, .eps 411], []⟩,
  ⟨[], [bs "COPY_TO_MINOR"]⟩,
  ⟨[.eps 407], []⟩,
  ⟨[.cls 31 413], []⟩,
  ⟨[.eps 415], []⟩,
  ⟨[.eps 419], []⟩,
  ⟨[.cls 0 416], []⟩,
  ⟨[.eps 417, .eps 418, .cls 0 416], []⟩,
  ⟨[], [bs "COPY_TO_VALUE"]⟩,
  ⟨[.eps 414], []⟩,
  ⟨[.eps 420, .cls 8 419], []⟩,
  ⟨[.eps 436], []⟩,
  ⟨[.eps 423], []⟩,
  ⟨[.eps 426], []⟩,
  ⟨[.eps 424, .cls 8 423], []⟩,
  ⟨[.eps 422], []⟩,
  ⟨[.eps 430], []⟩,
  ⟨[.cls 0 427], []⟩,
  ⟨[.eps 428, .eps 429, .cls 0 427], []⟩,
  ⟨[], [bs "COPY_TO_VALUE"]⟩,
  ⟨[.eps 425], []⟩,
  ⟨[.eps 431, .cls 8 430], []⟩,
  ⟨[.eps 438], []⟩,
  ⟨[.eps 440, .eps 433], []⟩,
  ⟨[], [bs "GOT_NAMEVALUE"]⟩,
  ⟨[.eps 440, .eps 435], []⟩,
  ⟨[], [bs "GOT_NAMEVALUE_CONT"]⟩,
  ⟨[.eps 440, .eps 437], []⟩,
  ⟨[], [bs "GOT_NAMEVALUE_CSET"]⟩,
  ⟨[.eps 440, .eps 439], []⟩,
  ⟨[], [bs "GOT_NAMEVALUE_CCONT"]⟩]

/-- The states of nvp.nfa. -/
def nvpStates11 : List IState := [
  ⟨[.eps 461], []⟩,
  ⟨[.cls 2 442], []⟩,
  ⟨[.eps 448, .cls 9 445, .cls 2 442, .eps 444, .eps 443], []⟩,
  ⟨[], [bs "COPY_TO_NAME"]⟩,
  ⟨[], [bs "GOT_NAME"]⟩,
  ⟨[.eps 448, .cls 2 442, .cls 10 445, .eps 447, .eps 446], []⟩,
  ⟨[], [bs "COPY_TO_NAME"]⟩,
  ⟨[], [bs "GOT_NAME_TRAILING_SPACE"]⟩,
  ⟨[.eps 461], []⟩,
  ⟨[.eps 450], []⟩,
  ⟨[.cls 2 451], []⟩,
  ⟨[.cls 2 451, .eps 452], []⟩,
  ⟨[.eps 453], []⟩,
  ⟨[.cls 32 454], []⟩,
  ⟨[.eps 455], []⟩,
  ⟨[.cls 3 456, .cls 2 456], []⟩,
  ⟨[.eps 457, .cls 3 456, .cls 2 456, .eps 458], []⟩,
  ⟨[], [bs "COPY_TO_MINOR"]⟩,
  ⟨[.eps 459], []⟩,
  ⟨[.eps 460, .eps 461], []⟩,
  ⟨[], [bs "GOT_MAJORMINOR"]⟩,
  ⟨[.eps 236], []⟩,
  ⟨[.cls 33 465], []⟩,
  ⟨[.eps 464, .cls 8 463], []⟩,
  ⟨[.eps 462], []⟩,
  ⟨[.eps 467], []⟩,
  ⟨[.token 0 703], []⟩,
  ⟨[.eps 468, .cls 8 467], []⟩,
  ⟨[.eps 466], []⟩,
  ⟨[.eps 473], []⟩,
  ⟨[.eps 471, .cls 8 470], []⟩,
  ⟨[.eps 469], []⟩,
  ⟨[.eps 699], []⟩,
  ⟨[.eps 474, .eps 677, .eps 685], []⟩,
  ⟨[.eps 544, .eps 526, .eps 510, .eps 491, .eps 476], []⟩,
  ⟨[.eps 479], []⟩,
  ⟨[.eps 477, .cls 8 476], []⟩,
  ⟨[.eps 475], []⟩,
  ⟨[.eps 488], []⟩,
  ⟨[.cls 2 480], []⟩]

/-- The states of nvp.nfa. -/
def nvpStates12 : List IState := [
  ⟨[.eps 481, .eps 482, .cls 2 480, .cls 9 483, .eps 486], []⟩,
  ⟨[], [bs "COPY_TO_NAME"]⟩,
  ⟨[], [bs "GOT_NAME"]⟩,
  ⟨[.eps 484, .eps 485, .cls 10 483, .cls 2 480, .eps 486], []⟩,
  ⟨[], [bs "COPY_TO_NAME"]⟩,
  ⟨[], [bs "GOT_NAME_TRAILING_SPACE"]⟩,
  ⟨[.eps 478], []⟩,
  ⟨[.cls 15 561], []⟩,
  ⟨[.eps 489, .cls 8 488], []⟩,
  ⟨[.eps 487], []⟩,
  ⟨[.eps 494], []⟩,
  ⟨[.eps 492, .cls 8 491], []⟩,
  ⟨[.eps 490], []⟩,
  ⟨[.cls 16 502], []⟩,
  ⟨[.cls 2 495], []⟩,
  ⟨[.eps 496, .eps 497, .cls 2 495, .cls 9 498, .eps 501], []⟩,
  ⟨[], [bs "COPY_TO_NAME"]⟩,
  ⟨[], [bs "GOT_NAME"]⟩,
  ⟨[.eps 499, .eps 500, .cls 10 498, .cls 2 495, .eps 501], []⟩,
  ⟨[], [bs "COPY_TO_NAME"]⟩,
  ⟨[], [bs "GOT_NAME_TRAILING_SPACE"]⟩,
  ⟨[.eps 493], []⟩,
  ⟨[.eps 504], []⟩,
  ⟨[.eps 507], []⟩,
  ⟨[.cls 13 505, .cls 14 504], []⟩,
  ⟨[.eps 503], []⟩,
  ⟨[.cls 17 596], []⟩,
  ⟨[.eps 508, .cls 8 507], []⟩,
  ⟨[.eps 506], []⟩,
  ⟨[.eps 513], []⟩,
  ⟨[.eps 511, .cls 8 510], []⟩,
  ⟨[.eps 509], []⟩,
  ⟨[.cls 18 521], []⟩,
  ⟨[.cls 2 514], []⟩,
  ⟨[.eps 515, .eps 516, .cls 2 514, .cls 9 517, .eps 520], []⟩,
  ⟨[], [bs "COPY_TO_NAME"]⟩,
  ⟨[], [bs "GOT_NAME"]⟩,
  ⟨[.eps 518, .eps 519, .cls 10 517, .cls 2 514, .eps 520], []⟩,
  ⟨[], [bs "COPY_TO_NAME"]⟩,
  ⟨[], [bs "GOT_NAME_TRAILING_SPACE"]⟩]

/-- The states of nvp.nfa. -/
def nvpStates13 : List IState := [
  ⟨[.eps 512], []⟩,
  ⟨[.eps 523], []⟩,
  ⟨[.cls 19 627], []⟩,
  ⟨[.eps 524, .cls 8 523], []⟩,
  ⟨[.eps 522], []⟩,
  ⟨[.eps 529], []⟩,
  ⟨[.eps 527, .cls 8 526], []⟩,
  ⟨[.eps 525], []⟩,
  ⟨[.cls 20 537], []⟩,
  ⟨[.cls 2 530], []⟩,
  ⟨[.eps 531, .eps 532, .cls 2 530, .cls 9 533, .eps 536], []⟩,
  ⟨[], [bs "COPY_TO_NAME"]⟩,
  ⟨[], [bs "GOT_NAME"]⟩,
  ⟨[.eps 534, .eps 535, .cls 10 533, .cls 2 530, .eps 536], []⟩,
  ⟨[], [bs "COPY_TO_NAME"]⟩,
  ⟨[], [bs "GOT_NAME_TRAILING_SPACE"]⟩,
  ⟨[.eps 528], []⟩,
  ⟨[.cls 21 538], []⟩,
  ⟨[.cls 22 539], []⟩,
  ⟨[.eps 541], []⟩,
  ⟨[.cls 23 627], []⟩,
  ⟨[.eps 542, .cls 8 541], []⟩,
  ⟨[.eps 540], []⟩,
  ⟨[.eps 547], []⟩,
  ⟨[.eps 545, .cls 8 544], []⟩,
  ⟨[.eps 543], []⟩,
  ⟨[.cls 24 555], []⟩,
  ⟨[.cls 2 548], []⟩,
  ⟨[.eps 549, .eps 550, .cls 2 548, .cls 9 551, .eps 554], []⟩,
  ⟨[], [bs "COPY_TO_NAME"]⟩,
  ⟨[], [bs "GOT_NAME"]⟩,
  ⟨[.eps 552, .eps 553, .cls 10 551, .cls 2 548, .eps 554], []⟩,
  ⟨[], [bs "COPY_TO_NAME"]⟩,
  ⟨[], [bs "GOT_NAME_TRAILING_SPACE"]⟩,
  ⟨[.eps 546], []⟩,
  ⟨[.cls 25 556], []⟩,
  ⟨[.cls 26 557], []⟩,
  ⟨[.eps 559], []⟩,
  ⟨[.cls 27 657], []⟩,
  ⟨[.eps 560, .cls 8 559], []⟩]

/-- The states of nvp.nfa. -/
def nvpStates14 : List IState := [
  ⟨[.eps 558], []⟩,
  ⟨[.eps 593, .eps 583, .eps 563], []⟩,
  ⟨[.eps 566], []⟩,
  ⟨[.eps 564, .cls 8 563], []⟩,
  ⟨[.eps 562], []⟩,
  ⟨[.eps 580], []⟩,
  ⟨[.cls 11 567], []⟩,
  ⟨[.eps 568, .cls 1 572, .cls 0 572], []⟩,
  ⟨[.cls 6 570, .cls 4 569], []⟩,
  ⟨[.cls 5 571], []⟩,
  ⟨[.cls 7 571], []⟩,
  ⟨[.eps 572], []⟩,
  ⟨[.eps 573, .eps 574, .cls 1 572, .cls 0 572, .eps 578], []⟩,
  ⟨[], [bs "COPY_TO_VALUE"]⟩,
  ⟨[.cls 6 576, .cls 4 575], []⟩,
  ⟨[.cls 5 577], []⟩,
  ⟨[.cls 7 577], []⟩,
  ⟨[.eps 572], []⟩,
  ⟨[.cls 12 579], []⟩,
  ⟨[.eps 565], []⟩,
  ⟨[.eps 581, .cls 8 580], []⟩,
  ⟨[.eps 668], []⟩,
  ⟨[.eps 586], []⟩,
  ⟨[.eps 584, .cls 8 583], []⟩,
  ⟨[.eps 582], []⟩,
  ⟨[.eps 590], []⟩,
  ⟨[.cls 0 587], []⟩,
  ⟨[.eps 588, .eps 589, .cls 0 587], []⟩,
  ⟨[], [bs "COPY_TO_VALUE"]⟩,
  ⟨[.eps 585], []⟩,
  ⟨[.eps 591, .cls 8 590], []⟩,
  ⟨[.eps 668], []⟩,
  ⟨[.eps 595], []⟩,
  ⟨[.eps 594, .cls 8 593], []⟩,
  ⟨[.eps 592], []⟩,
  ⟨[.token 0 668], []⟩,
  ⟨[.eps 618, .eps 598], []⟩,
  ⟨[.eps 601], []⟩,
  ⟨[.eps 599, .cls 8 598], []⟩,
  ⟨[.eps 597], []⟩]

/-- The states of nvp.nfa. -/
def nvpStates15 : List IState := [
  ⟨[.eps 615], []⟩,
  ⟨[.cls 11 602], []⟩,
  ⟨[.eps 603, .cls 1 607, .cls 0 607], []⟩,
  ⟨[.cls 6 605, .cls 4 604], []⟩,
  ⟨[.cls 5 606], []⟩,
  ⟨[.cls 7 606], []⟩,
  ⟨[.eps 607], []⟩,
  ⟨[.eps 608, .eps 609, .cls 1 607, .cls 0 607, .eps 613], []⟩,
  ⟨[], [bs "COPY_TO_VALUE"]⟩,
  ⟨[.cls 6 611, .cls 4 610], []⟩,
  ⟨[.cls 5 612], []⟩,
  ⟨[.cls 7 612], []⟩,
  ⟨[.eps 607], []⟩,
  ⟨[.cls 12 614], []⟩,
  ⟨[.eps 600], []⟩,
  ⟨[.eps 616, .cls 8 615], []⟩,
  ⟨[.eps 670], []⟩,
  ⟨[.eps 621], []⟩,
  ⟨[.eps 619, .cls 8 618], []⟩,
  ⟨[.eps 617], []⟩,
  ⟨[.eps 625], []⟩,
  ⟨[.cls 0 622], []⟩,
  ⟨[.eps 623, .eps 624, .cls 0 622], []⟩,
  ⟨[], [bs "COPY_TO_VALUE"]⟩,
  ⟨[.eps 620], []⟩,
  ⟨[.eps 626, .cls 8 625], []⟩,
  ⟨[.eps 670], []⟩,
  ⟨[.eps 641, .eps 629], []⟩,
  ⟨[.cls 28 631], []⟩,
  ⟨[.eps 630, .cls 8 629], []⟩,
  ⟨[.eps 628], []⟩,
  ⟨[.cls 29 632], []⟩,
  ⟨[.eps 634], []⟩,
  ⟨[.eps 638], []⟩,
  ⟨[.cls 0 635], []⟩,
  ⟨[.eps 636, .eps 637, .cls 0 635], []⟩,
  ⟨[], [bs "COPY_TO_VALUE"]⟩,
  ⟨[.eps 633], []⟩,
  ⟨[.eps 639, .cls 8 638], []⟩,
  ⟨[.eps 672], []⟩]

/-- The states of nvp.nfa. -/
def nvpStates16 : List IState := [
  ⟨[.eps 644], []⟩,
  ⟨[.eps 642, .cls 8 641], []⟩,
  ⟨[.eps 640], []⟩,
  ⟨[.cls 30 648], []⟩,
  ⟨[.cls 3 645, .cls 2 645], []⟩,
  ⟨[.eps 646, .cls 3 645, .cls 2 645, .eps 647], []⟩,
  ⟨[], [bs "COPY_TO_MINOR"]⟩,
  ⟨[.eps 643], []⟩,
  ⟨[.cls 31 649], []⟩,
  ⟨[.eps 651], []⟩,
  ⟨[.eps 655], []⟩,
  ⟨[.cls 0 652], []⟩,
  ⟨[.eps 653, .eps 654, .cls 0 652], []⟩,
  ⟨[], [bs "COPY_TO_VALUE"]⟩,
  ⟨[.eps 650], []⟩,
  ⟨[.eps 656, .cls 8 655], []⟩,
  ⟨[.eps 672], []⟩,
  ⟨[.eps 659], []⟩,
  ⟨[.eps 662], []⟩,
  ⟨[.eps 660, .cls 8 659], []⟩,
  ⟨[.eps 658], []⟩,
  ⟨[.eps 666], []⟩,
  ⟨[.cls 0 663], []⟩,
  ⟨[.eps 664, .eps 665, .cls 0 663], []⟩,
  ⟨[], [bs "COPY_TO_VALUE"]⟩,
  ⟨[.eps 661], []⟩,
  ⟨[.eps 667, .cls 8 666], []⟩,
  ⟨[.eps 674], []⟩,
  ⟨[.eps 676, .eps 669], []⟩,
  ⟨[], [bs "GOT_NAMEVALUE"]⟩,
  ⟨[.eps 676, .eps 671], []⟩,
  ⟨[], [bs "GOT_NAMEVALUE_CONT"]⟩,
  ⟨[.eps 676, .eps 673], []⟩,
  ⟨[], [bs "GOT_NAMEVALUE_CSET"]⟩,
  ⟨[.eps 676, .eps 675], []⟩,
  ⟨[], [bs "GOT_NAMEVALUE_CCONT"]⟩,
  ⟨[.eps 697], []⟩,
  ⟨[.cls 2 678], []⟩,
  ⟨[.eps 684, .cls 9 681, .cls 2 678, .eps 680, .eps 679], []⟩,
  ⟨[], [bs "COPY_TO_NAME"]⟩]

/-- The states of nvp.nfa. -/
def nvpStates17 : List IState := [
  ⟨[], [bs "GOT_NAME"]⟩,
  ⟨[.eps 684, .cls 2 678, .cls 10 681, .eps 683, .eps 682], []⟩,
  ⟨[], [bs "COPY_TO_NAME"]⟩,
  ⟨[], [bs "GOT_NAME_TRAILING_SPACE"]⟩,
  ⟨[.eps 697], []⟩,
  ⟨[.eps 686], []⟩,
  ⟨[.cls 2 687], []⟩,
  ⟨[.cls 2 687, .eps 688], []⟩,
  ⟨[.eps 689], []⟩,
  ⟨[.cls 32 690], []⟩,
  ⟨[.eps 691], []⟩,
  ⟨[.cls 3 692, .cls 2 692], []⟩,
  ⟨[.eps 693, .cls 3 692, .cls 2 692, .eps 694], []⟩,
  ⟨[], [bs "COPY_TO_MINOR"]⟩,
  ⟨[.eps 695], []⟩,
  ⟨[.eps 696, .eps 697], []⟩,
  ⟨[], [bs "GOT_MAJORMINOR"]⟩,
  ⟨[.eps 472], []⟩,
  ⟨[.cls 34 701], []⟩,
  ⟨[.eps 700, .cls 8 699], []⟩,
  ⟨[.eps 698], []⟩,
  ⟨[.eps 0, .eps 702], []⟩,
  ⟨[], [bs "GOT_TERMINATOR"]⟩,
  ⟨[.eps 705, .eps 704], []⟩,
  ⟨[], [bs "GOT_TERMINATOR"]⟩,
  ⟨[], []⟩]

/-- The states of nvp.nfa. -/
def nvpStates : List IState := nvpStates0 ++ (nvpStates1 ++ (nvpStates2 ++ (nvpStates3 ++ (nvpStates4 ++ (nvpStates5 ++ (nvpStates6 ++ (nvpStates7 ++ (nvpStates8 ++ (nvpStates9 ++ (nvpStates10 ++ (nvpStates11 ++ (nvpStates12 ++ (nvpStates13 ++ (nvpStates14 ++ (nvpStates15 ++ (nvpStates16 ++ (nvpStates17)))))))))))))))))

/-- nvp.nfa as it is read. -/
def nvpAuto : IAuto := ⟨nvpscanClasses, nvpStates, 1, [⟨[⟨bs "COPY_TO_NAME", .tag (bs "COPY_TO_NAME"), false⟩, ⟨bs "COPY_TO_MINOR", .tag (bs "COPY_TO_MINOR"), false⟩, ⟨bs "COPY_TO_VALUE", .tag (bs "COPY_TO_VALUE"), false⟩], some (bs "COPY_NOWHERE")⟩, ⟨[⟨bs "GOT_NAMEVALUE", .tag (bs "GOT_NAMEVALUE"), false⟩, ⟨bs "GOT_NAMEVALUE_CONT", .tag (bs "GOT_NAMEVALUE_CONT"), false⟩, ⟨bs "GOT_NAMEVALUE_CSET", .tag (bs "GOT_NAMEVALUE_CSET"), false⟩, ⟨bs "GOT_NAMEVALUE_CCONT", .tag (bs "GOT_NAMEVALUE_CCONT"), false⟩, ⟨bs "GOT_NAME", .tag (bs "GOT_NAME"), false⟩, ⟨bs "GOT_NAME_TRAILING_SPACE", .tag (bs "GOT_NAME_TRAILING_SPACE"), false⟩, ⟨bs "GOT_MAJORMINOR", .tag (bs "GOT_MAJORMINOR"), false⟩, ⟨bs "GOT_TERMINATOR", .tag (bs "GOT_TERMINATOR"), false⟩], some (bs "GOT_NOTHING")⟩, ⟨[], some (bs "0")⟩], [], [0]⟩

/-- The groups of characters. -/
def nvpGroups : Grouping := ⟨17,
  [0, 0, 0, 0, 0, 0, 0, 0, 0, 1, 0, 0, 0, 2, 0, 0, 0, 0, 0, 0, 0, 0, 0, 0, 0, 0, 0, 0, 0, 0, 0, 0, 1, 3, 4, 3, 3, 3, 3, 5, 3, 3, 6, 7, 3, 8, 7, 9, 10, 11, 11, 11, 11, 11, 11, 11, 11, 11, 3, 12, 3, 13, 3, 3, 3, 14, 14, 14, 14, 14, 14, 14, 14, 14, 14, 14, 14, 14, 14, 14, 14, 14, 14, 14, 14, 14, 14, 14, 14, 14, 14, 3, 15, 3, 3, 16, 3, 14, 14, 14, 14, 14, 14, 14, 14, 14, 14, 14, 14, 14, 14, 14, 14, 14, 14, 14, 14, 14, 14, 14, 14, 14, 14, 3, 3, 3, 3, 0, 0, 0, 0, 0, 0, 0, 0, 0, 0, 0, 0, 0, 0, 0, 0, 0, 0, 0, 0, 0, 0, 0, 0, 0, 0, 0, 0, 0, 0, 0, 0, 0, 0, 0, 0, 0, 0, 0, 0, 0, 0, 0, 0, 0, 0, 0, 0, 0, 0, 0, 0, 0, 0, 0, 0, 0, 0, 0, 0, 0, 0, 0, 0, 0, 0, 0, 0, 0, 0, 0, 0, 0, 0, 0, 0, 0, 0, 0, 0, 0, 0, 0, 0, 0, 0, 0, 0, 0, 0, 0, 0, 0, 0, 0, 0, 0, 0, 0, 0, 0, 0, 0, 0, 0, 0, 0, 0, 0, 0, 0, 0, 0, 0, 0, 0, 0, 0, 0, 0, 0, 0, 0, 0, 0, 0, 0, 0, 0],
  [94184, 4098, 85248, 33152, 32768, 32768, 32768, 16, 6, 2, 2, 16, 16, 3072, 3072, 8192, 64, 8192, 64, 8192, 64, 1024, 64, 8192, 64, 18432, 64, 8192, 32, 32, 32, 32, 512, 4096, 4096]⟩

/-- A character of each group. -/
def nvpReps : List Nat := [0, 9, 13, 33, 34, 39, 42, 43, 45, 47, 48, 49, 59, 61, 65, 92, 95]

/-- What is reached without input. -/
def nvpClosures0 : Tree (Nat × Nat) :=
  .node 16 (.node 8 (.node 4 (.node 2 (.node 1 (.leaf (482206882034623530753650810710766189552332981069672351141084497899063816236916742927287489325261416193597171646666911557774963650222215496969819031634142050342013674683586118737443997991481762236994175372271, 9)) (.leaf (632696502290003723208585650693301269165862809254859005375635524578, 6))) (.node 1 (.leaf (632696502290003723208585650693301269165862809254859005375635524590, 8)) (.leaf (632696502290003723208585650693301269165862809254859005375635524586, 7)))) (.node 2 (.node 1 (.leaf (12078056106883486628010822758984794541789440701298176471534417391648784, 3)) (.leaf (632696502290003723208585650693301269165862809254859005375635524576, 5))) (.node 1 (.leaf (868918747547918095354816, 4)) (.leaf (2176, 1))))) (.node 4 (.node 2 (.node 1 (.leaf (2944, 3)) (.leaf (2688, 2))) (.node 1 (.leaf (3671040, 3)) (.leaf (2048, 0)))) (.node 2 (.node 1 (.leaf (3961856, 5)) (.leaf (8192, 0))) (.node 1 (.leaf (16384, 0)) (.leaf (4162560, 5)))))) (.node 8 (.node 4 (.node 2 (.node 1 (.leaf (65536, 0)) (.leaf (131072, 0))) (.node 1 (.leaf (3933184, 4)) (.leaf (524288, 0)))) (.node 2 (.node 1 (.leaf (3670016, 2)) (.leaf (2621440, 1))) (.node 1 (.leaf (71303168, 1)) (.leaf (96468992, 3))))) (.node 4 (.node 2 (.node 1 (.leaf (88080384, 2)) (.leaf (33554432, 0))) (.node 1 (.leaf (67108864, 0)) (.leaf (9563013120, 2)))) (.node 2 (.node 1 (.leaf (268435456, 0)) (.leaf (536870912, 0))) (.node 1 (.leaf (16139681792, 2)) (.leaf (2147483648, 0))))))

/-- What is reached without input. -/
def nvpClosures1 : Tree (Nat × Nat) :=
  .node 16 (.node 8 (.node 4 (.node 2 (.node 1 (.leaf (4294967296, 0)) (.leaf (8623489024, 1))) (.node 1 (.leaf (85899345920, 1)) (.leaf (1958505086976, 3)))) (.node 2 (.node 1 (.leaf (68719476736, 0)) (.leaf (2095944040448, 4))) (.node 1 (.leaf (274877906944, 0)) (.leaf (1924145348608, 2))))) (.node 4 (.node 2 (.node 1 (.leaf (1374389534720, 1)) (.leaf (37383395344384, 1))) (.node 1 (.leaf (50577534877696, 3)) (.leaf (46179488366592, 2)))) (.node 2 (.node 1 (.leaf (17592186044416, 0)) (.leaf (35184372088832, 0))) (.node 1 (.leaf (5013773022658560, 2)) (.leaf (140737488355328, 0)))))) (.node 8 (.node 4 (.node 2 (.node 1 (.leaf (281474976710656, 0)) (.leaf (8461841487364096, 2))) (.node 1 (.leaf (1125899906842624, 0)) (.leaf (2251799813685248, 0)))) (.node 2 (.node 1 (.leaf (4521191813414912, 1)) (.leaf (135107988821114880, 3))) (.node 1 (.leaf (18014398509481984, 0)) (.leaf (126100789566373888, 2))))) (.node 4 (.node 2 (.node 1 (.leaf (90071992547409920, 1)) (.leaf (2449958197289549824, 1))) (.node 1 (.leaf (3314649325744685056, 3)) (.leaf (3026418949592973312, 2)))) (.node 2 (.node 1 (.leaf (1152921504606846976, 0)) (.leaf (2305843009213693952, 0))) (.node 1 (.leaf (328582628812951388160, 2)) (.leaf (9223372036854775808, 0))))))

/-- What is reached without input. -/
def nvpClosures2 : Tree (Nat × Nat) :=
  .node 16 (.node 8 (.node 4 (.node 2 (.node 1 (.leaf (18446744073709551616, 0)) (.leaf (554555243715893395456, 2))) (.node 1 (.leaf (73786976294838206464, 0)) (.leaf (147573952589676412928, 0)))) (.node 2 (.node 1 (.leaf (296300826683959672832, 1)) (.leaf (590295810358705651712, 0))) (.node 1 (.leaf (1180591620717411303424, 0)) (.leaf (35417748621522339102720, 3))))) (.node 4 (.node 2 (.node 1 (.leaf (4722366482869645213696, 0)) (.leaf (33056565380087516495872, 2))) (.node 1 (.leaf (23611832414348226068480, 1)) (.leaf (642241841670271749062656, 1)))) (.node 2 (.node 1 (.leaf (868915432848014719320064, 3)) (.leaf (793357569122100395900928, 2))) (.node 1 (.leaf (302231454903657293676544, 0)) (.leaf (604462909807314587353088, 0)))))) (.node 8 (.node 4 (.node 2 (.node 1 (.leaf (86135964647542328697815040, 2)) (.leaf (2417851639229258349412352, 0))) (.node 1 (.leaf (4835703278458516698824704, 0)) (.leaf (145373329808659158258417664, 2)))) (.node 2 (.node 1 (.leaf (19342813113834066795298816, 0)) (.leaf (38685626227668133590597632, 0))) (.node 1 (.leaf (77673483910239924474871808, 1)) (.leaf (154742504910672534362390528, 0))))) (.node 4 (.node 2 (.node 1 (.leaf (309485009821345068724781056, 0)) (.leaf (9284550294640352061743431680, 3))) (.node 1 (.leaf (1237940039285380274899124224, 0)) (.leaf (8665580274997661924293869568, 2)))) (.node 2 (.node 1 (.leaf (6189700196426901374495621120, 1)) (.leaf (319492410764830468410041483491641655296, 4))) (.node 1 (.leaf (336719690685623434772561788928, 1)) (.leaf (455561934457019941162877714432, 3))))))

/-- What is reached without input. -/
def nvpClosures3 : Tree (Nat × Nat) :=
  .node 16 (.node 8 (.node 4 (.node 2 (.node 1 (.leaf (415947853199887772366105739264, 2)) (.leaf (12940774816429260564518648607137604655283992407999561594939753338241040, 9))) (.node 1 (.leaf (316912650057057350374175801344, 0)) (.leaf (1901475900342344102245054808064, 1)))) (.node 2 (.node 1 (.leaf (1267650600228229401496703205376, 0)) (.leaf (2535301200456458802993406410752, 0))) (.node 1 (.leaf (5070602400912917605986812821504, 0)) (.leaf (1450192286661094435312228466950144, 2))))) (.node 4 (.node 2 (.node 1 (.leaf (1440051081859268600100254841307136, 1)) (.leaf (40564819207303340847894502572032, 0))) (.node 1 (.leaf (81129638414606681695789005144064, 0)) (.leaf (162259276829213363391578010288128, 0)))) (.node 2 (.node 1 (.leaf (324518553658426726783156020576256, 0)) (.leaf (2089088189176122053666566882459648, 2))) (.node 1 (.leaf (1298074214633706907132624082305024, 0)) (.leaf (12940774816429260564518648607137604657880140837266975409205001502851088, 10)))))) (.node 8 (.node 4 (.node 2 (.node 1 (.leaf (12940774816429260564518648607137604655283833951674533066264566250340368, 8)) (.leaf (12940774816429260564518648607137604650091537093139705437734069921120272, 7))) (.node 1 (.leaf (353076186380368278740073750386966528, 1)) (.leaf (477691310985204141824805662288248832, 3)))) (.node 2 (.node 1 (.leaf (436152936116925520796561691654488064, 2)) (.leaf (12940774816429260564518648607137620756596392268175009139333683161858064, 9))) (.node 1 (.leaf (332306998946228968225951765070086144, 0)) (.leaf (12940774816429260564518648607137625408894377515380564302658394143064080, 11))))) (.node 4 (.node 2 (.node 1 (.leaf (1329227995784915872903807060280344576, 0)) (.leaf (12940774816429260564518648607137623415052383838006754946947803722547216, 10))) (.node 1 (.leaf (12940774816429260564518648607137620590442892795060525026357800626814992, 8)) (.leaf (12940774816429260564518648607137615273530909655397033411129559505436688, 7)))) (.node 2 (.node 1 (.leaf (191408831393027885698148216680369618944, 1)) (.leaf (319014718988379809496913694467282698240, 3))) (.node 1 (.leaf (276479423123262501563991868538311671808, 2)) (.leaf (170141183460469231731687303715884105728, 0))))))

/-- What is reached without input. -/
def nvpClosures4 : Tree (Nat × Nat) :=
  .node 16 (.node 8 (.node 4 (.node 2 (.node 1 (.leaf (16413364459389783916278071427275743361507524608, 4)) (.leaf (11569600475311907757754736652680119189504, 1))) (.node 1 (.leaf (15652988878363169319315231941861337726976, 3)) (.leaf (14291859410679415465461733512134264881152, 2)))) (.node 2 (.node 1 (.leaf (12940774830891702962849561622238592753383097211042529661997797215305744, 9)) (.leaf (10889035741470030830827987437816582766592, 0))) (.node 1 (.leaf (65334214448820184984967924626899496599552, 1)) (.leaf (43556142965880123323311949751266331066368, 0))))) (.node 4 (.node 2 (.node 1 (.leaf (87112285931760246646623899502532662132736, 0)) (.leaf (174224571863520493293247799005065324265472, 0))) (.node 1 (.leaf (49828227552966861081868870515448682739924992, 2)) (.leaf (49479778409239820095282374917438552091394048, 1)))) (.node 2 (.node 1 (.leaf (1393796574908163946345982392040522594123776, 0)) (.leaf (2787593149816327892691964784081045188247552, 0))) (.node 1 (.leaf (5575186299632655785383929568162090376495104, 0)) (.leaf (11150372599265311570767859136324180752990208, 0)))))) (.node 8 (.node 4 (.node 2 (.node 1 (.leaf (71780523607770443236818093190086913597374464, 2)) (.leaf (44601490397061246283071436545296723011960832, 0))) (.node 1 (.leaf (12940774830891702962849561711441573547505589777185402752591243239227408, 10)) (.leaf (12940774830891702962849561622233148235512362195627115668278888923922448, 8)))) (.node 2 (.node 1 (.leaf (12940774830891702962849561443827186647267377063341369487091996876079120, 7)) (.leaf (12131605388000658988995430740320708659253346304, 1))) (.node 1 (.leaf (16413348466118538632170288648669194068401586176, 3)) (.leaf (14986100773412578751112002679219698932018839552, 2))))) (.node 4 (.node 2 (.node 1 (.leaf (12940774830891702962850114859120033383211257413726023528831129286082576, 9)) (.leaf (11417981541647679048466287755595961091061972992, 0))) (.node 1 (.leaf (12940774830891702962850274710861616450717935941754601872286404153704464, 11)) (.leaf (45671926166590716193865151022383844364247891968, 0)))) (.node 2 (.node 1 (.leaf (12940774830891702962850206202972366564643645144028068296519857781866512, 10)) (.leaf (12940774830891702962850109150129262559371733180582145730850583755096080, 8))) (.node 1 (.leaf (12940774830891702962849926462424596196506957719978056195473126763528208, 7)) (.leaf (137696107511949683890019268356780962838393512502755328, 4))))))

/-- What is reached without input. -/
def nvpClosures5 : Tree (Nat × Nat) :=
  .node 16 (.node 8 (.node 4 (.node 2 (.node 1 (.leaf (1461501637330902918203684832716283019655932542976, 0)) (.leaf (10230511461316320427425793829013981137591527800832, 2))) (.node 1 (.leaf (7307508186654514591018424163581415098279662714880, 1)) (.leaf (11692013098647223345629478661730264157247460343808, 0)))) (.node 2 (.node 1 (.leaf (116920130986472233456294786617302641572474603438080, 1)) (.leaf (12940774888741472560709712088801021453163498210320527393910769464639504, 9))) (.node 1 (.leaf (93536104789177786765035829293842113257979682750464, 0)) (.leaf (12940774888741472562019217555849510467873999820434316979522485023146000, 11))))) (.node 4 (.node 2 (.node 1 (.leaf (374144419156711147060143317175368453031918731001856, 0)) (.leaf (12940774888741472561458000927114443747283784844671264299974606926643216, 10))) (.node 1 (.leaf (12940774888741472560662944036406432559780980295673606337281779623264272, 8)) (.leaf (12940774888741472559166366359779587971540407026972132525154104699256848, 7)))) (.node 2 (.node 1 (.leaf (101767282010625432000358982271700219224681894832504832, 1)) (.leaf (137685146249669702118132740720535590715746093008683008, 3))) (.node 1 (.leaf (125712524836654945412208154570923800218724693616623616, 2)) (.leaf (47890485652059026823698344598447161988085597568237568, 0)))))) (.node 8 (.node 4 (.node 2 (.node 1 (.leaf (95780971304118053647396689196894323976171195136475136, 0)) (.leaf (1388824083909711777887251993354967697654482329478889472, 2))) (.node 1 (.leaf (383123885216472214589586756787577295904684780545900544, 0)) (.leaf (814138256085003456002871858173601753797455158660038656, 1)))) (.node 2 (.node 1 (.leaf (1532495540865888858358347027150309183618739122183602176, 0)) (.leaf (15324955408658888583583470271503091836187391221836021760, 1))) (.node 1 (.leaf (12940774888742067164443066971402941833705794809532428971678162088886288, 9)) (.leaf (12259964326927110866866776217202473468949912977468817408, 0))))) (.node 4 (.node 2 (.node 1 (.leaf (12940774888742238803943643950955077968572835644160994270459846652330000, 11)) (.leaf (49039857307708443467467104868809893875799651909875269632, 0))) (.node 1 (.leaf (12940774888742165244157682388289876767915532429320180570981981839425552, 10)) (.leaf (12940774888742061034460903507847508400317686208295694496721673354477584, 8)))) (.node 2 (.node 1 (.leaf (12940774888741864875031672674073638531898210968720191298114033853399056, 7)) (.leaf (36877972695396749487535262861345040194601338236226202763264, 4))) (.node 1 (.leaf (26677682375393393246302105048632582268435010638972146679808, 1)) (.leaf (36093334978473414392055789183444081892588543805668198449152, 3))))))

/-- What is reached without input. -/
def nvpClosures6 : Tree (Nat × Nat) :=
  .node 16 (.node 8 (.node 4 (.node 2 (.node 1 (.leaf (32954784110780074010137894471840248684537366083436181192704, 2)) (.leaf (12940775121358308666132826752752583240288962537490272961846945830141968, 9))) (.node 1 (.leaf (25108406941546723055343157692830665664409421777856138051584, 0)) (.leaf (12940775121709826363314480875527387447988591856792004866736931762864144, 11)))) (.node 2 (.node 1 (.leaf (100433627766186892221372630771322662657637687111424552206336, 0)) (.leaf (12940775121559175921665200537195328501831607862805548336069794934554640, 10))) (.node 1 (.leaf (12940775121345754462662053391224911661442547204658068250958017761116176, 8)) (.leaf (12940775120944019951597305822339421138357256554027517502512319552290832, 7))))) (.node 4 (.node 2 (.node 1 (.leaf (12940774816429260564518648607137604639706943376070050180673077262680080, 6)) (.leaf (3213876088517980551083924184682325205044405987565585670602752, 0))) (.node 1 (.leaf (12940774830891702962849561087015263470777406798769877124718212780392464, 6)) (.leaf (12855504354071922204335696738729300820177623950262342682411008, 0)))) (.node 2 (.node 1 (.leaf (12940774888741472556173211006525898795059260489569184900898754851242000, 6)) (.leaf (51422017416287688817342786954917203280710495801049370729644032, 0))) (.node 1 (.leaf (12940775120140550929467810684568440092186675252766416005620923134640144, 6)) (.leaf (205688069665150755269371147819668813122841983204197482918576128, 0)))))) (.node 8 (.node 4 (.node 2 (.node 1 (.leaf (12940774811608446431741677780511718362683455568503441199324698756775952, 5)) (.leaf (822752278660603021077484591278675252491367932816789931674304512, 0))) (.node 1 (.leaf (12940891231055876907069160244581384295231683097065934775100030670864400, 6)) (.leaf (3291009114642412084309938365114701009965471731267159726697218048, 0)))) (.node 2 (.node 1 (.leaf (6582018229284824168619876730229402019930943462534319453394436096, 0)) (.leaf (12940971860779185646165225838071329605406427251123350820513334752706576, 6))) (.node 1 (.leaf (26328072917139296674479506920917608079723773850137277813577744384, 0)) (.leaf (52656145834278593348959013841835216159447547700274555627155488768, 0))))) (.node 4 (.node 2 (.node 1 (.leaf (12940879712523975658626865159797106393778148217914875340040987230601232, 5)) (.leaf (631873750011343120187508166102022593913370572403294667525865865216, 1))) (.node 1 (.leaf (421249166674228746791672110734681729275580381602196445017243910144, 0)) (.leaf (5897488333439202455083409550285544209858125342430750230241414742016, 2)))) (.node 2 (.node 1 (.leaf (5054990000090744961500065328816180751306964579226357340206926921728, 1)) (.leaf (3369993333393829974333376885877453834204643052817571560137951281152, 0))) (.node 1 (.leaf (20219960000362979846000261315264723005227858316905429360827707686912, 1)) (.leaf (13479973333575319897333507543509815336818572211270286240551805124608, 0))))))

/-- What is reached without input. -/
def nvpClosures7 : Tree (Nat × Nat) :=
  .node 16 (.node 8 (.node 4 (.node 2 (.node 1 (.leaf (13776532746913976935074844709467031274228580799918232537843944837349392, 7)) (.leaf (53919893334301279589334030174039261347274288845081144962207220498432, 0))) (.node 1 (.leaf (13695652906912525015690843664205972382207669366650610820400634006601744, 6)) (.leaf (13587813120243922456512175603857893859513120788960448530476219565604880, 5)))) (.node 2 (.node 1 (.leaf (431359146674410236714672241392314090778194310760649159697657763987456, 0)) (.leaf (12940774400232307101440167241769422723345829322819474790929732919623696, 4))) (.node 1 (.leaf (1725436586697640946858688965569256363112777243042596638790631055949824, 0)) (.leaf (12078056106883486628010822758984794541789440701298176471534417391648768, 2))))) (.node 4 (.node 2 (.node 1 (.leaf (8627182933488204734293444827846281815563886215212983193953155279749120, 1)) (.leaf (4366710773307200772128359439577152241546491984311069580710760894427108119644225312292084933143629159969683980593863019113960825147097088, 6))) (.node 1 (.leaf (4366710773307200772128359439577152241546491984311069580710760894509929075805712077741302003490953465399097288259907657775911115832688640, 8)) (.leaf (4366710773307200772128359439577152241546491984311069580710760894482322090418549822591562980041845363589292852371226111555261018937491456, 7)))) (.node 2 (.node 1 (.leaf (83359679612014563063320848879059464035950420374507133697563547963629269103090929679454798180353912239439971295723010141026098991970138456064, 3)) (.leaf (4366710773307200772128359439577152241546491984311069580710760894413304626950644184717215421419075109064781762649522246003635776699498496, 5))) (.node 1 (.leaf (5997056791546675870556927514270734572682286171061959927623365827688702423854122121652691009536, 4)) (.leaf (15018200050616266801458028756314807384533613123442761144033652710987268096, 1)))))) (.node 8 (.node 4 (.node 2 (.node 1 (.leaf (20318741244951419790207921258543562932016064814069618018398471314865127424, 3)) (.leaf (18551894180173035460624623757800644416188580917193999060276865113572507648, 2))) (.node 1 (.leaf (25336586908922031286224486160653451516966119081196375859463832926536167587840, 3)) (.leaf (14134776518227074636666380005943348126619871175004951664972849610340958208, 0)))) (.node 2 (.node 1 (.leaf (27343725174510275884631112121497406950946140788047078995889977571204583653376, 5)) (.leaf (56539106072908298546665520023773392506479484700019806659891398441363832832, 0))) (.node 1 (.leaf (113078212145816597093331040047546785012958969400039613319782796882727665664, 0)) (.leaf (28728933273296529199024417362079855067354888163197564259057316833017997557760, 5))))) (.node 4 (.node 2 (.node 1 (.leaf (452312848583266388373324160190187140051835877600158453279131187530910662656, 0)) (.leaf (904625697166532776746648320380374280103671755200316906558262375061821325312, 0))) (.node 1 (.leaf (27145838303255096839717782801414200077173462591597009672580357676659810238464, 4)) (.leaf (3618502788666131106986593281521497120414687020801267626233049500247285301248, 0)))) (.node 2 (.node 1 (.leaf (25329519520662917748906152970650479842902809145608873383631346501730997108736, 2)) (.leaf (18092513943330655534932966407607485602073435104006338131165247501236426506240, 1))) (.node 1 (.leaf (492116379258593830550176686286923608376397434828972397167694732033630800969728, 1)) (.leaf (665804513114568123685533163799955470156302411827433243226881108045500495429632, 3))))))

/-- What is reached without input. -/
def nvpClosures8 : Tree (Nat × Nat) :=
  .node 16 (.node 8 (.node 4 (.node 2 (.node 1 (.leaf (607908468495910025973747671295611516229667419494612961207152316041543930609664, 2)) (.leaf (231584178474632390847141970017375815706539969331281128078915168015826259279872, 0))) (.node 1 (.leaf (463168356949264781694283940034751631413079938662562256157830336031652518559744, 0)) (.leaf (66001490865270231391435461454952107476363891259415121502490822884510483894763520, 2)))) (.node 2 (.node 1 (.leaf (1852673427797059126777135760139006525652319754650249024631321344126610074238976, 0)) (.leaf (3705346855594118253554271520278013051304639509300498049262642688253220148477952, 0))) (.node 1 (.leaf (111391989846298179997475287578357767354845725248346222605958195815612430713618432, 2)) (.leaf (14821387422376473014217086081112052205218558037201992197050570753012880593911808, 0))))) (.node 4 (.node 2 (.node 1 (.leaf (29642774844752946028434172162224104410437116074403984394101141506025761187823616, 0)) (.leaf (59517133867980524447715486294465584636580772118139249916281198180067348634927104, 1))) (.node 1 (.leaf (592855496895058920568683443244482088208742321488079687882022830120515223756472320, 1)) (.leaf (13517105329207343388965982505974191611159324929928216883710120526747747101647568896, 3)))) (.node 2 (.node 1 (.leaf (474284397516047136454946754595585670566993857190463750305618264096412179005177856, 0)) (.leaf (14465674124239437661875876015165362952293312644309144384321357054940571459657924608, 4))) (.node 1 (.leaf (1897137590064188545819787018382342682267975428761855001222473056385648716020711424, 0)) (.leaf (13279963130449319820738509128676398775875828001332985008557311394699541012144979968, 2)))))) (.node 8 (.node 4 (.node 2 (.node 1 (.leaf (9485687950320942729098935091911713411339877143809275006112365281928243580103557120, 1)) (.leaf (258010712248729642231491034499998604788444658311612280166256335668448225378816753664, 1))) (.node 1 (.leaf (349073316571810692430840811382351053537307478892181320224935042374959363747810902016, 3)) (.leaf (318719115130783675697724219088233570621019872031991640205375473472788984291479519232, 2)))) (.node 2 (.node 1 (.leaf (121416805764108066932466369176469931665150427440758720078238275608681517825325531136, 0)) (.leaf (242833611528216133864932738352939863330300854881517440156476551217363035650651062272, 0))) (.node 1 (.leaf (34603789642770799075752915215293930524567871820616235222297908548474232580217776373760, 2)) (.leaf (971334446112864535459730953411759453321203419526069760625906204869452142602604249088, 0))))) (.node 4 (.node 2 (.node 1 (.leaf (1942668892225729070919461906823518906642406839052139521251812409738904285205208498176, 0)) (.leaf (58401483572535980194516323573882037130937355599004944357632610567775810073981580476416, 2))) (.node 1 (.leaf (7770675568902916283677847627294075626569627356208558085007249638955617140820833992704, 0)) (.leaf (15541351137805832567355695254588151253139254712417116170014499277911234281641667985408, 0)))) (.node 2 (.node 1 (.leaf (31204119081375773201643856878352772437943659852274991060107236831431150081108661501952, 1)) (.leaf (932481068268349954041341715275289075188355282745026970200869956674674056898500079124480, 3))) (.node 1 (.leaf (124330809102446660538845562036705210025114037699336929360115994223289874253133343883264, 0)) (.leaf (870315663717126623771918934256936470175798263895358505520811959563029119771933407182848, 2))))))

/-- What is reached without input. -/
def nvpClosures9 : Tree (Nat × Nat) :=
  .node 16 (.node 8 (.node 4 (.node 2 (.node 1 (.leaf (621654045512233302694227810183526050125570188496684646800579971116449371265666719416320, 1)) (.leaf (16908990037932745833282996436991908563415509127109822392975775214367422898426134768123904, 1))) (.node 1 (.leaf (22876868874850185539147583414753758644620982936677995002261342937085336862576535274520576, 3)) (.leaf (20887575929211038970526054422166475284219158333488604132499487029512698874526401772388352, 2)))) (.node 2 (.node 1 (.leaf (7957171782556586274486115970349133441607298412757563479047423630290551952200534008528896, 0)) (.leaf (15914343565113172548972231940698266883214596825515126958094847260581103904401068017057792, 0))) (.node 1 (.leaf (2267793958028627088228543051549503030858080047635905591528515734632807306377152192430735360, 2)) (.leaf (63657374260452690195888927762793067532858387302060507832379389042324415617604272068231168, 0))))) (.node 4 (.node 2 (.node 1 (.leaf (127314748520905380391777855525586135065716774604121015664758778084648831235208544136462336, 0)) (.leaf (3827399627409717998027821781737933185413110536536388033421810766169755489008456858102398976, 2))) (.node 1 (.leaf (509258994083621521567111422102344540262867098416484062659035112338595324940834176545849344, 0)) (.leaf (1018517988167243043134222844204689080525734196832968125318070224677190649881668353091698688, 0)))) (.node 2 (.node 1 (.leaf (2044993148117042672542931804379727294493075692078693814115187872984671851715537240191926272, 1)) (.leaf (4074071952668972172536891376818756322102936787331872501272280898708762599526673412366794752, 0))) (.node 1 (.leaf (8148143905337944345073782753637512644205873574663745002544561797417525199053346824733589504, 0)) (.leaf (244444317160138330352213482609125379326176207239912350076336853922525755971600404742007685120, 3)))))) (.node 8 (.node 4 (.node 2 (.node 1 (.leaf (32592575621351777380295131014550050576823494298654980010178247189670100796213387298934358016, 0)) (.leaf (228148029349462441662065917101850354037764460090584860071247730327690705573493711092540506112, 2))) (.node 1 (.leaf (162962878106758886901475655072750252884117471493274900050891235948350503981066936494671790080, 1)) (.leaf (4432590284503841723720137817978806878447995224617077281384241617795133708285020672655072690176, 1)))) (.node 2 (.node 1 (.leaf (5997033914328727037974304106677209306135522950952516321872797482899298546503263263003921874944, 3)) (.leaf (5475552704387098599889582010444408496906347042174036641709945527864576933763849066220972146688, 2))) (.node 1 (.leaf (2085924839766513752338888384931203236916703635113918720651407820138886450957656787131798913024, 0)) (.leaf (4171849679533027504677776769862406473833407270227837441302815640277772901915313574263597826048, 0))))) (.node 4 (.node 2 (.node 1 (.leaf (594488579333456419416583189705392922521260536007466835385651228739582638522932184332562690211840, 2)) (.leaf (16687398718132110018711107079449625895333629080911349765211262561111091607661254297054391304192, 0))) (.node 1 (.leaf (33374797436264220037422214158899251790667258161822699530422525122222183215322508594108782608384, 0)) (.leaf (1003329847927693114875005313151908756956934448489794904633327161486804382910632914610395277164544, 2)))) (.node 2 (.node 1 (.leaf (133499189745056880149688856635597007162669032647290798121690100488888732861290034376435130433536, 0)) (.leaf (266998379490113760299377713271194014325338065294581596243380200977777465722580068752870260867072, 0))) (.node 1 (.leaf (536082683819994034351094314927319231887592834224277111207411809775693817896117794292872320647168, 1)) (.leaf (1067993517960455041197510853084776057301352261178326384973520803911109862890320275011481043468288, 0))))))

/-- What is reached without input. -/
def nvpClosures10 : Tree (Nat × Nat) :=
  .node 16 (.node 8 (.node 4 (.node 2 (.node 1 (.leaf (2135987035920910082395021706169552114602704522356652769947041607822219725780640550022962086936576, 0)) (.leaf (64079611077627302471850651185086563438081135670699583098411248234666591773419216500688862608097280, 3))) (.node 1 (.leaf (8543948143683640329580086824678208458410818089426611079788166431288878903122562200091848347746304, 0)) (.leaf (59807637005785482307060607772747459208875726625986277558517165019022152321857935400642938434224128, 2)))) (.node 2 (.node 1 (.leaf (42719740718418201647900434123391042292054090447133055398940832156444394515612811000459241738731520, 1)) (.leaf (2205055578823478880969377378449112859221103832135946884527863835768415240843941080232901849890351443519471616, 4))) (.node 1 (.leaf (2323953895081950169645783616312472700687742520324038213702381269310575061649336918424982750586994688, 1)) (.leaf (3144172916875579641285471951481580712695181056908992877362045246714307436349102889633800191970639872, 3))))) (.node 4 (.node 2 (.node 1 (.leaf (2870766576277703150738909173091878042026034878047341322808823920913063311449180899230861044842758144, 2)) (.leaf (89313945313929977819865104036515092061119008411303446949454903270332795828585220805949725018632237823967555574766162292915446296954630307840, 9))) (.node 1 (.leaf (2187250724783011924372502227117621365353169430893212436425770606409952999199375923223513177023053824, 0)) (.leaf (13123504348698071546235013362705728192119016585359274618554623638459717995196255539341079062138322944, 1)))) (.node 2 (.node 1 (.leaf (8749002899132047697490008908470485461412677723572849745703082425639811996797503692894052708092215296, 0)) (.leaf (17498005798264095394980017816940970922825355447145699491406164851279623993595007385788105416184430592, 0))) (.node 1 (.leaf (34996011596528190789960035633881941845650710894291398982812329702559247987190014771576210832368861184, 0)) (.leaf (10008859316607062565928570191290235367856103315767340109084326294931944924336344224670796298057494298624, 2)))))) (.node 8 (.node 4 (.node 2 (.node 1 (.leaf (9938867293414006184348650120022471484164801893978757311118701635526826428361964195127643876392756576256, 1)) (.leaf (279968092772225526319680285071055534765205687154331191862498637620473983897520118172609686658950889472, 0))) (.node 1 (.leaf (559936185544451052639360570142111069530411374308662383724997275240947967795040236345219373317901778944, 0)) (.leaf (1119872371088902105278721140284222139060822748617324767449994550481895935590080472690438746635803557888, 0)))) (.node 2 (.node 1 (.leaf (2239744742177804210557442280568444278121645497234649534899989100963791871180160945380877493271607115776, 0)) (.leaf (14418356777769614605463534681159360040408092888448056380918679837454410170722286085889398862935970807808, 2))) (.node 1 (.leaf (8958978968711216842229769122273777112486581988938598139599956403855167484720643781523509973086428463104, 0)) (.leaf (89313945313929977819865104036515092079036966348725880633914441514880350053558384783826921297832150631677890544207449855962466243127487234048, 10))))) (.node 4 (.node 2 (.node 1 (.leaf (89313945313929977819865104036515092061117914785941055443492717019219237017902544221234278412414024938664350598266562604953834540366118780928, 8)) (.leaf (89313945313929977819865104036515092025281998911096188074573640530124128567956216265479885854014199323243680659383987478859794648020404928512, 7))) (.node 1 (.leaf (2436842279489450981086497201258467374596350300991298693971188141848605555844015108574394712679508541964288, 1)) (.leaf (3296904260485727797940555036996749977395062171929404115372783956618701634377196911600651670095805674422272, 3)))) (.node 2 (.node 1 (.leaf (3010216933486968858989202425083989109795491548283368974905585351695336274866136310591899350957039963602944, 2)) (.leaf (89313945313929977819865104036515203188293042679874766461548909703150540301465535015605602010273258358161831073132028622571540704424775122944, 9))) (.node 1 (.leaf (2293498615990071511610820895302086940796564989168281123737588839386922876088484808070018553110125686554624, 0)) (.leaf (89313945313929977819865104036515235297273666540875929013041443932367711453375383371541334336517009775082096311919341602831284246184386887680, 11))))))

/-- What is reached without input. -/
def nvpClosures11 : Tree (Nat × Nat) :=
  .node 16 (.node 8 (.node 4 (.node 2 (.node 1 (.leaf (9173994463960286046443283581208347763186259956673124494950355357547691504353939232280074212440502746218496, 0)) (.leaf (89313945313929977819865104036515221536281970600446859348116072119846066673985448361854591910983973453544839781010493182719965585430267559936, 10))) (.node 1 (.leaf (89313945313929977819865104036515202041543734684839010656138462052107069903183040431465040141478838664700393028889624587562264149361931845632, 8)) (.leaf (89313945313929977819865104036515165345565878843694824883004137218716017158143213738967060340057408473934375613132695467265414387350946971648, 7)))) (.node 2 (.node 1 (.leaf (1321055202810281190687832835694002077898821433760929927272851171486867576626967249448330686591432395455463424, 1)) (.leaf (2201758671350468651146388059490003463164702389601549878788085285811445961044945415747217810985720659092439040, 3))) (.node 1 (.leaf (1908190848503739497660202984891336334742742070988009894949673914369919832905619360314255436187624571213447168, 2)) (.leaf (1174271291386916613944740298394668513687841274454159935353645485766104512557304221731849499192384351515967488, 0))))) (.node 4 (.node 2 (.node 1 (.leaf (113280878196135518105463951093500938788444537059667957861385266779882112106878660894412858276647056551448097973075968, 4)) (.leaf (79850447814310329748242340290837458930773206662882875604047893032095106853896687077765765945082135903085789184, 1))) (.node 1 (.leaf (108032958807596328482916107452309503259281397249782714052535384690481615155271988399330153925699360339469008896, 3)) (.leaf (98638788476500995571358185065152155149778667054149434569706220804352779054813554625475357932160285527341268992, 2)))) (.node 2 (.node 1 (.leaf (89313945413746086808214442675313660176067987967924429128277307876734744097108085673057446470234558134416694148307801400717241074041931956224, 9)) (.leaf (75153362648762663292463379097258784876021841565066235862633311089030688803667470190838367948312598497021919232, 0))) (.node 1 (.leaf (450920175892575979754780274583552709256131049390397415175799866534184132822004821145030207689875590982131515392, 1)) (.leaf (300613450595050653169853516389035139504087366260264943450533244356122755214669880763353471793250393988087676928, 0)))))) (.node 8 (.node 4 (.node 2 (.node 1 (.leaf (601226901190101306339707032778070279008174732520529886901066488712245510429339761526706943586500787976175353856, 0)) (.leaf (1202453802380202612679414065556140558016349465041059773802132977424491020858679523053413887173001575952350707712, 0))) (.node 1 (.leaf (343901787480737947226312422749056199592675947001743095307410031543404431965582343593276371731478450722372302405632, 2)) (.leaf (341496879875977542000953594617943918476643248071660975759805765588555449923864984547169543957132447570467600990208, 1)))) (.node 2 (.node 1 (.leaf (9619630419041620901435312524449124464130795720328478190417063819395928166869436184427311097384012607618805661696, 0)) (.leaf (19239260838083241802870625048898248928261591440656956380834127638791856333738872368854622194768025215237611323392, 0))) (.node 1 (.leaf (38478521676166483605741250097796497856523182881313912761668255277583712667477744737709244389536050430475222646784, 0)) (.leaf (76957043352332967211482500195592995713046365762627825523336510555167425334955489475418488779072100860950445293568, 0))))) (.node 4 (.node 2 (.node 1 (.leaf (495410966580643476423918595009129909902735979596916626806478786698890300593775963498006521515276649292368491577344, 2)) (.leaf (307828173409331868845930000782371982852185463050511302093346042220669701339821957901673955116288403443801781174272, 0))) (.node 1 (.leaf (89313945413746086808214443290970006994731725659784430693021273581105670198130689859749530911573960814060609951655711633294047961645494304768, 10)) (.leaf (89313945413746086808214442675276083494743606636278197438728678484296733176325552555126129814690042790014860413212382216743084774793420996608, 8)))) (.node 2 (.node 1 (.leaf (89313945413746086808214441443963389857416131252558194309240747075554880974280344181741960932011237430727028806516561751589470999586296299520, 7)) (.leaf (83729263167338268326092960212805179335794445949739074169390123484022158764431572549255315791630445736714084479401984, 1))) (.node 1 (.leaf (113280767814634127735302240287912889689604250402588159170351343537206450093054480507816015482794132467319055472132096, 3)) (.leaf (103430266265535507932232480262876986238334315584971797503364270186145019650180177854962448919072903557117398474555392, 2))))))

/-- What is reached without input. -/
def nvpClosures12 : Tree (Nat × Nat) :=
  .node 16 (.node 8 (.node 4 (.node 2 (.node 1 (.leaf (89313945413746086808218260975939052847244771552007901980803976992780411718516718419433835001665461941580672776951644658099401692087106666496, 9)) (.leaf (78804012392788958424558080200287227610159478540930893335896586808491443542994421222828532509769831281613255980613632, 0))) (.node 1 (.leaf (89313945413746086808219364232112551892662715365130706001990519225479984751023420971649153881875063863477792376406781435737344277670835257344, 11)) (.leaf (315216049571155833698232320801148910440637914163723573343586347233965774171977684891314130039079325126453023922454528, 0)))) (.node 2 (.node 1 (.leaf (89313945413746086808218891408038195158912168016649504278624858268608739165663405592128302933213805896950455405211722816749654598134951575552, 10)) (.leaf (89313945413746086808218221573932856452765559272967801837190171913041141253070050471140430755943690444370061362685389773183760885459116359680, 8))) (.node 1 (.leaf (89313945413746086808216960709734571829430766343684597241548409361384486358776676125751494892847002533630496106165233455883255073363426541568, 7)) (.leaf (950343606987879438393465831054100645491837484860553546379285103930294476687998834268083405398300101006442716011712466649088, 4))))) (.node 4 (.node 2 (.node 1 (.leaf (10086913586276986678343434265636765134100413253239154346994763111486904773503285916522052161250538404046496765518544896, 0)) (.leaf (70608395103938906748404039859457355938702892772674080428963341780408333414523001415654365128753768828325477358629814272, 2))) (.node 1 (.leaf (50434567931384933391717171328183825670502066266195771734973815557434523867516429582610260806252692020232483827592724480, 1)) (.leaf (80695308690215893426747474125094121072803306025913234775958104891895238188026287332176417290004307232371974124148359168, 0)))) (.node 2 (.node 1 (.leaf (806953086902158934267474741250941210728033060259132347759581048918952381880262873321764172900043072323719741241483591680, 1)) (.leaf (89313945813010522792921558532433411748943253740501645880630153820674571271767140457039065301364140676031914747670926405884683752713888989184, 9))) (.node 1 (.leaf (645562469521727147413979793000752968582426448207305878207664839135161905504210298657411338320034457858975792993186873344, 0)) (.leaf (89313945813010522801959433105737591812738970842512187440784124095576853566674448204931331978423084857235673484151408815910344854618505216000, 11)))))) (.node 8 (.node 4 (.node 2 (.node 1 (.leaf (2582249878086908589655919172003011874329705792829223512830659356540647622016841194629645353280137831435903171972747493376, 0)) (.leaf (89313945813010522798086058288607228928255092084507669629289565406333018297428459170120360545397823065291205454231202068756490096659383975936, 10))) (.node 1 (.leaf (89313945813010522792598777297672548175236263844001269396338940596570918332663308037471484348612035526703209078510909176955195856217295552512, 8)) (.leaf (89313945813010522782269777785324913816612587155989221899020117425254024281340670611308893860544670748184627665390357851211583168326305579008, 7)))) (.node 2 (.node 1 (.leaf (702371966839639136386410014784819229817679975649548795489939344979056153188580804939263536092197490150565662776587318198272, 1)) (.leaf (950267955135982360993378255297108369753331731761154252721682643206958324902197559623709490007090721968412367285971077562368, 3))) (.node 1 (.leaf (867635959037201286124388841793011989774781146390619100311101543797657600997658641395560838702126311362463465782843157774336, 2)) (.leaf (330527984395124299475957654016385519914202341482140609642324397637202895618155672912594605219857642423795606012511679152128, 0))))) (.node 4 (.node 2 (.node 1 (.leaf (661055968790248598951915308032771039828404682964281219284648795274405791236311345825189210439715284847591212025023358304256, 0)) (.leaf (9585311547458604684802771966475180077511867902982077679627407531478883972926514514465243551375871630290072574362838695411712, 2))) (.node 1 (.leaf (2644223875160994395807661232131084159313618731857124877138595181097623164945245383300756841758861139390364848100093433217024, 0)) (.leaf (5618975734717113091091280118278553838541439805196390363919514759832449225508646439514108288737579921204525302212698545586176, 1)))) (.node 2 (.node 1 (.leaf (10576895500643977583230644928524336637254474927428499508554380724390492659780981533203027367035444557561459392400373732868096, 0)) (.leaf (105768955006439775832306449285243366372544749274284995085543807243904926597809815332030273670354445575614593924003737328680960, 1))) (.node 1 (.leaf (89313945813014626597066028623931938589597501222580381640654313340429555278416459270135707905244823965765874591637589045968609137552678453248, 9)) (.leaf (84615164005151820665845159428194693098035799419427996068435045795123941278247852265624218936283556460491675139202989862944768, 0))))))

/-- What is reached without input. -/
def nvpClosures13 : Tree (Nat × Nat) :=
  .node 16 (.node 8 (.node 4 (.node 2 (.node 1 (.leaf (89313945813015811209362100749421260421829495948283754141846185332374513369057591005313603375176542704830982561428035929420557979410759680000, 11)) (.leaf (338460656020607282663380637712778772392143197677711984273740183180495765112991409062496875745134225841966700556811959451779072, 0))) (.node 1 (.leaf (89313945813015303518378069838497265350872926780125165927049668764398102758782820261665933888062948959517364860089272979369722761471582011392, 10)) (.leaf (89313945813014584289484026048021605667017787125233832622754603626431521060893561708165068781318691153656406449859358800131039536057746980864, 8)))) (.node 2 (.node 1 (.leaf (89313945813013230446859943618890952144466936010144264049963892778494426100160839725104616815682441166153425912955990933328812288219939864576, 7)) (.leaf (254522413327496676562862239560009636838891684653639412173852617751732815364969539614997650560340937833158958818722593507737862144, 4))) (.node 1 (.leaf (184122596875210361768879066915751652181325899536675319444914659650189696221467326529998300405353018858029885102905705941767815168, 1)) (.leaf (249107042831166960040248149356605176480617393490796020425472774820844883123161677069997700548418790219687491609813602156509396992, 3))))) (.node 4 (.node 2 (.node 1 (.leaf (227445560845848093949791788542987335047520228839422453431953403097293154155930226889997900500730199765801622774177636751595536384, 2)) (.leaf (89313947418472921585504857920893283161465169435394582205585762374301990841455339894309874425275121525635034919354309821719569743140018454528, 9))) (.node 1 (.leaf (173291855882550928723650886508942731464777317210988535948154973788413831737851601439998400381508723631086950685087723239310884864, 0)) (.leaf (89313947420899007567860570923024395572590367675901464646539601877576160474493133538639796845435099130976157050189527131310797868490370842624, 11)))) (.node 2 (.node 1 (.leaf (693167423530203714894603546035770925859109268843954143792619895153655326951406405759993601526034894524347802740350892957243539456, 0)) (.leaf (89313947419859256432565265350682490253536711287112800743273670661887230631762650548212687236795108728687104708403005427200271529054505533440, 10))) (.node 1 (.leaf (89313947418386275657563582456531457718210698069662193546980268106327913354561132978440948624555122325444280557538766346377025881520363012096, 8)) (.leaf (89313947415613605963442767596953043534067614366225756471604451531157433773946511670635323001515147919340140979441375135415622309691388854272, 7)))))) (.node 8 (.node 4 (.node 2 (.node 1 (.leaf (89313945313929977819865104036515091953610167161406453336735487551933911668063560353971100737214548092402340781618837226671714863328977223680, 6)) (.leaf (22181357552966518876627313473144669627491496603006532601363836644916970462445004984319795248833116624779129687691228574631793262592, 0))) (.node 1 (.leaf (89313945413746086808214438981338002582761180485118188050264884258071176570189927434973623166653626712151365593124920821282243449172046905344, 6)) (.leaf (88725430211866075506509253892578678509965986412026130405455346579667881849780019937279180995332466499116518750764914298527173050368, 0)))) (.node 2 (.node 1 (.leaf (89313945813010522761611778760629645099365233779965126904382471082620236178695395758983712884409941191147464839149255199724357792544325632000, 6)) (.leaf (354901720847464302026037015570314714039863945648104521621821386318671527399120079749116723981329865996466075003059657194108692201472, 0))) (.node 1 (.leaf (89313947410068266575201137877796215165781446959352882320852818380816474612717269055024071755435199107131861823246592713492815166033440538624, 6)) (.leaf (1419606883389857208104148062281258856159455782592418086487285545274686109596480318996466895925319463985864300012238628776434768805888, 0))))) (.node 4 (.node 2 (.node 1 (.leaf (89313945280657941490415325721574121743893162720169208432225688649888156700688104660303593260734855219152665844450142695134872001381287329792, 5)) (.leaf (5678427533559428832416592249125035424637823130369672345949142181098744438385921275985867583701277855943457200048954515105739075223552, 0))) (.node 1 (.leaf (89314748778153940149595112669377372936405748972142155740862640453506782173026136268164145260997948949969281843643949622198759463460431462400, 6)) (.leaf (22713710134237715329666368996500141698551292521478689383796568724394977753543685103943470334805111423773828800195818060422956300894208, 0)))) (.node 2 (.node 1 (.leaf (45427420268475430659332737993000283397102585042957378767593137448789955507087370207886940669610222847547657600391636120845912601788416, 0)) (.leaf (89315305264052228973620689495417787189877363478808931968752543469440529849981098088449191876021151675199164302449554419741239825889803370496, 6))) (.node 1 (.leaf (181709681073901722637330951972001133588410340171829515070372549795159822028349480831547762678440891390190630401566544483383650407153664, 0)) (.leaf (363419362147803445274661903944002267176820680343659030140745099590319644056698961663095525356881782780381260803133088966767300814307328, 0))))))

/-- What is reached without input. -/
def nvpClosures14 : Tree (Nat × Nat) :=
  .node 16 (.node 8 (.node 4 (.node 2 (.node 1 (.leaf (89314669280168470317591458837085885185909804042618330565449797165516246790603998865266281458851777132079298635243148936835547983113378332672, 5)) (.leaf (4361032345773641343295942847328027206121848164123908361688941195083835728680387539957146304282581393364575129637597067601207609771687936, 1))) (.node 1 (.leaf (2907354897182427562197295231552018137414565442749272241125960796722557152453591693304764202855054262243050086425064711734138406514458624, 0)) (.leaf (40702968560553985870762133241728253923803916198489811375763451154115800134350283706266698839970759671402701209950905964277937691202420736, 2)))) (.node 2 (.node 1 (.leaf (34888258766189130746367542778624217648974785312991266893511529560670685829443100319657170434260651146916601037100776540809660878173503488, 1)) (.leaf (23258839177459420497578361852416145099316523541994177929007686373780457219628733546438113622840434097944400691400517693873107252115668992, 0))) (.node 1 (.leaf (139553035064756522985470171114496870595899141251965067574046118242682743317772401278628681737042604587666404148403106163238643512694013952, 1)) (.leaf (93035356709837681990313447409664580397266094167976711716030745495121828878514934185752454491361736391777602765602070775492429008462675968, 0))))) (.node 4 (.node 2 (.node 1 (.leaf (95082134557454110994100343252677201166005948239672199373783421896014619541783811386859607446265491024803949244188871058738145047036435628032, 7)) (.leaf (372141426839350727961253789638658321589064376671906846864122981980487315514059736743009817965446945567110411062408283101969716033850703872, 0))) (.node 1 (.leaf (94523922417195084902158462568219213683622351674664339103487237423043888568512721781745092719317320606453283627595258634085190472985659572224, 6)) (.leaf (93779639563516383446235954988941897040444222921320525409758991459082913937484602308259073083386426715319062805470442067881251040917958164480, 5)))) (.node 2 (.node 1 (.leaf (2977131414714805823690030317109266572712515013375254774912983855843898524112477893944078543723575564536883288499266264815757728270805630976, 0)) (.leaf (89313942441444174710700909513277997181375450401257643247389515675317066151315885467342955267801063368513737872721542670657614448511749718016, 4))) (.node 1 (.leaf (11908525658859223294760121268437066290850060053501019099651935423375594096449911575776314174894302258147533153997065059263030913083222523904, 0)) (.leaf (83359679612014563063320848879059464035950420374507133697563547963629158675149381030434199224260115807032732077979455414841216391582557667328, 2)))))) (.node 8 (.node 4 (.node 2 (.node 1 (.leaf (59542628294296116473800606342185331454250300267505095498259677116877970482249557878881570874471511290737665769985325296315154565416112619520, 1)) (.leaf (1429023079063106795371214552212447954902007206420122291958232250805071291573989389093157700987316270977703978479647807111563709569986702868480, 3))) (.node 1 (.leaf (190536410541747572716161940294993060653600960856016305594430966774009505543198585212421026798308836130360530463953040948208494609331560382464, 0)) (.leaf (1333754873792233009013133582064951424575206725992114139161016767418066538802390096486947187588161852912523713247671286637459462265320922677248, 2)))) (.node 2 (.node 1 (.leaf (952682052708737863580809701474965303268004804280081527972154833870047527715992926062105133991544180651802652319765204741042473046657801912320, 1)) (.leaf (482206882034623530753650810710766189552332981069672351141084497889918064164202086129710944062742309705072083979086144578172696534308864720966578439223565018997977463822121956101243909760561386072587808800768, 6))) (.node 1 (.leaf (482206882034623530753650810710766189552332981069672351141084497899063811870205969620086717196901976616444930100174927246705382939461320987040110529419774305316801598079427418370989875274569127320502707159040, 8)) (.leaf (482206882034623530753650810710766189552332981069672351141084497896015229301538008456628126152182087645987314726478666357194487471077168898348933166021037876543860219993658930947741220103233213571197741039616, 7))))) (.node 4 (.node 2 (.node 1 (.leaf (9205237827709653637671732295040225164713094654940554254121991580370293464350166110543570272849958669203102025959806666041342050019695193368828440558094386433136733189987121120785104570918250098879760410402095104, 3)) (.leaf (482206882034623530753650810710766189552332981069672351141084497888393772879868105547981648540382365219843276292238014133417248800116788676620989757524196804611506774779237712389619582174893429197935325741056, 5))) (.node 1 (.leaf (662242636840844956938385739466033253742463995137017947359792591218390844529211482923831492708561536645699626190705866091942541494375952645310890656198932858977386496, 4)) (.leaf (1658428917355370872921473528327619599928942763290765923893927134800978736248000485688912617252480109678658057158247268413206737079621901568966656, 1)))) (.node 2 (.node 1 (.leaf (2243756770539619416305523008913838282256804915040448014680019064730735937276706539461470011576884854271125606743511010206103232519488455063896064, 3)) (.leaf (2048647486144869901844173182051765388147517531123887317751321754754150203600471188203950880135416606073636423548423096275137734039532937232252928, 2))) (.node 1 (.leaf (2797867138220708037375756517202125301527181085363480393957519425064239420917214937032824344870654679151994887017560685770045248202562125705762570240, 3)) (.leaf (1560874275157996115690798614896583152874299071332485575429578479812685869409882810060153051531745985579913465560703311447723987839644142653145088, 0))))))

/-- What is reached without input. -/
def nvpClosures15 : Tree (Nat × Nat) :=
  .node 16 (.node 8 (.node 4 (.node 2 (.node 1 (.leaf (3019511285293143485803849920517440109235331553492693345668519569197640814373418296061366078188162609104342599127180555995622054475791593962509172736, 5)) (.leaf (6243497100631984462763194459586332611497196285329942301718313919250743477639531240240612206126983942319653862242813245790895951358576570612580352, 0))) (.node 1 (.leaf (12486994201263968925526388919172665222994392570659884603436627838501486955279062480481224412253967884639307724485626491581791902717153141225160704, 0)) (.leaf (3172476964258627105141548184777305258217012862483276932060618260219284029575586811447261077238273715691174118752129480517499005284076719942517391360, 5)))) (.node 2 (.node 1 (.leaf (49947976805055875702105555676690660891977570282639538413746511354005947821116249921924897649015871538557230897942505966327167610868612564900642816, 0)) (.leaf (99895953610111751404211111353381321783955140565279076827493022708011895642232499843849795298031743077114461795885011932654335221737225129801285632, 0))) (.node 1 (.leaf (2997659045440931540184178739908887945095091366494038547612505470480263212201679936720523935466718165306223810609330709635353918646036575965365141504, 4)) (.leaf (399583814440447005616844445413525287135820562261116307309972090832047582568929999375399181192126972308457847183540047730617340886948900519205142528, 0))))) (.node 4 (.node 2 (.node 1 (.leaf (2797086701083129039317911117894677009950743935827814151169804635824333077982509995627794268344888806159204930284780334114321386208642303634435997696, 2)) (.leaf (1997919072202235028084222227067626435679102811305581536549860454160237912844649996876995905960634861542289235917700238653086704434744502596025712640, 1))) (.node 1 (.leaf (54343398763900792763890844576239439050471596467511817794156204353158471229374479915054288642129268233950267216961446491363958360625050470611899383808, 1)) (.leaf (73523421857042249033499377956088652832990983456045400545034864713096755192683119885073449339351362904756243881771368782433590723198597695533746225152, 3)))) (.node 2 (.node 1 (.leaf (67130080825995096943629866829472248238817854459867539628075311259783993871580239895067062440277331347820918326834728018743713269007415287226463944704, 2)) (.leaf (25573364124188608359478044506465618376692515984711443667838213813251045284411519960025547596296126227741302219746563054759509816764729633229129121792, 0))) (.node 1 (.leaf (51146728248377216718956089012931236753385031969422887335676427626502090568823039920051095192592252455482604439493126109519019633529459266458258243584, 0)) (.leaf (7288408775393753382451242684342701237357367055642761445333890936776547906057283188607281064944395974906271132627770470606460297777947945470301799710720, 2)))))) (.node 8 (.node 4 (.node 2 (.node 1 (.leaf (204586912993508866875824356051724947013540127877691549342705710506008362275292159680204380770369009821930417757972504438076078534117837065833032974336, 0)) (.leaf (409173825987017733751648712103449894027080255755383098685411421012016724550584319360408761540738019643860835515945008876152157068235674131666065948672, 0))) (.node 1 (.leaf (12300788143734720620908939407609962439189100188646204404230180844173752781801941100772288393818436715543566367698096829339324221863834953583211107581952, 2)) (.leaf (1636695303948070935006594848413799576108321023021532394741645684048066898202337277441635046162952078575443342063780035504608628272942696526664263794688, 0)))) (.node 2 (.node 1 (.leaf (3273390607896141870013189696827599152216642046043064789483291368096133796404674554883270092325904157150886684127560071009217256545885393053328527589376, 0)) (.leaf (6572354579916472348385857438161663922809976608070841022634420950005518638093760629726565732248104440529514670474866705073194022908535515739886184300544, 1))) (.node 1 (.leaf (65467812157922837400263793936551983044332840920861295789665827361922675928093491097665401846518083143017733682551201420184345130917707861066570551787520, 1)) (.leaf (1492666117200640692726014501753385213410788772995637544004380863851837011160531597026771162100612295660804327962167392380203068984923739232317808580755456, 3))))) (.node 4 (.node 2 (.node 1 (.leaf (52374249726338269920211035149241586435466272736689036631732661889538140742474792878132321477214466514414186946040961136147476104734166288853256441430016, 0)) (.leaf (1597414616653317232566436572051868386281721318469015617267846187630913292645481182783035805055041228689632701854249314652498021194392071810024321463615488, 4))) (.node 1 (.leaf (209496998905353079680844140596966345741865090946756146526930647558152562969899171512529285908857866057656747784163844544589904418936665155413025765720064, 0)) (.leaf (1466478992337471557765908984178764420193055636627293025688514532907067940789294200587705001362005062403597234489146911812129330932556656087891180360040448, 2)))) (.node 2 (.node 1 (.leaf (1047484994526765398404220702984831728709325454733780732634653237790762814849495857562646429544289330288283738920819222722949522094683325777065128828600320, 1)) (.leaf (28491591851128018836594803121187423020893652368758835927662568067908748563906287325703982883604669783841317698646282858064227000975386461136171504137928704, 1))) (.node 1 (.leaf (38547447798584966661275321869841807616503176734203130960955239150700071586461447558305388607229847354608841592286147396204542413084346388595996740892491776, 3)) (.leaf (35195495816099317386381815620290346084633335279055032616524348789769630578943060814104920032688121497686333627739525883491103942381359746109388328640970752, 2))))))

/-- What is reached without input. -/
def nvpClosures16 : Tree (Nat × Nat) :=
  .node 16 (.node 8 (.node 4 (.node 2 (.node 1 (.leaf (13407807929942597099574024998205846127479365820592393377723561443721764030073546976801874298166903427690031858186486050853753882811946569946433649006084096, 0)) (.leaf (26815615859885194199148049996411692254958731641184786755447122887443528060147093953603748596333806855380063716372972101707507765623893139892867298012168192, 0))) (.node 1 (.leaf (3821225260033640173378597124488666146331619258868832112651215011460702748570960888388534174977567476891659079583148524493319856601404772434733589966733967360, 2)) (.leaf (107262463439540776796592199985646769019834926564739147021788491549774112240588375814414994385335227421520254865491888406830031062495572559571469192048672768, 0)))) (.node 2 (.node 1 (.leaf (214524926879081553593184399971293538039669853129478294043576983099548224481176751628829988770670454843040509730983776813660062124991145119142938384097345536, 0)) (.leaf (6449155614302389204895106024137011987317574959704941214685033054430168498465376095841701537418280548718905323787699790460655617632546300144234585171926450176, 2))) (.node 1 (.leaf (858099707516326214372737599885174152158679412517913176174307932398192897924707006515319955082681819372162038923935107254640248499964580476571753536389382144, 0)) (.leaf (1716199415032652428745475199770348304317358825035826352348615864796385795849414013030639910165363638744324077847870214509280496999929160953143507072778764288, 0))))) (.node 4 (.node 2 (.node 1 (.leaf (3445806637995247454590524424538902454762197015892245098074955291036493355728901573038081694628894180916338187553926915069414747882670268476233447794563612672, 1)) (.leaf (102971964901959145724728511986220898259041529502149581140916951887783147750964840781838394609921818324659444670872212870556829819995749657188610424366725857280, 3))) (.node 1 (.leaf (13729595320261219429963801598162786434538870600286610818788926918371086366795312104245119281322909109954592622782961716074243975999433287625148056582230114304, 0)) (.leaf (96107167241828536009746611187139505041772094202006275731522488428597604567567184729715834969260363769682148359480732012519707831996033013376036396075610800128, 2)))) (.node 2 (.node 1 (.leaf (68647976601306097149819007990813932172694353001433054093944634591855431833976560521225596406614545549772963113914808580371219879997166438125740282911150571520, 1)) (.leaf (1867224963555525842475077017350138955097286401638979071355294060898467745884162446177336222259915638953824596698482793386097180735922927117020135695183295545344, 1))) (.node 1 (.leaf (2526245538928064375113339494061952703955152190452736390657162552980279891490337427181101947763415276231645042592064955757660891583895724923027242411130341031936, 3)) (.leaf (2306572013803884864233918668491348121002530260848150617556539722286342509621612433513180039262248730472371560627537568300472987967904792321024873505814659203072, 2)))))) (.node 8 (.node 4 (.node 2 (.node 1 (.leaf (878694100496718043517683302282418331810487718418343092402491322775749527474899974671687634004666183037093927858109549828751614463963730408009475621262727315456, 0)) (.leaf (1757388200993436087035366604564836663620975436836686184804982645551499054949799949343375268009332366074187855716219099657503228927927460816018951242525454630912, 0))) (.node 1 (.leaf (250427818641564642402539741150489224565988999749227781334710026991088615330346492781430975691329862165571769439561221701194210122229663166282700552059877284904960, 2)) (.leaf (7029552803973744348141466418259346654483901747346744739219930582205996219799199797373501072037329464296751422864876398630012915711709843264075804970101818523648, 0)))) (.node 2 (.node 1 (.leaf (14059105607947488696282932836518693308967803494693489478439861164411992439598399594747002144074658928593502845729752797260025831423419686528151609940203637047296, 0)) (.leaf (422651862338921378932005668397843217600844592559223027445598326255135522715426887817081751956244434040842179299750693467629526557166554326252557773827371838734336, 2))) (.node 1 (.leaf (56236422431789954785131731346074773235871213978773957913759444657647969758393598378988008576298635714374011382919011189040103325693678746112606439760814548189184, 0)) (.leaf (112472844863579909570263462692149546471742427957547915827518889315295939516787196757976017152597271428748022765838022378080206651387357492225212879521629096378368, 0))))) (.node 4 (.node 2 (.node 1 (.leaf (225824383827656537184044608686581511275295343633514174747440269953367628561049293490623721939199209040533139459534154305989164917238678714858435234664520920072192, 1)) (.leaf (449891379454319638281053850768598185886969711830191663310075557261183758067148787031904068610389085714992091063352089512320826605549429968900851518086516385513472, 0))) (.node 1 (.leaf (899782758908639276562107701537196371773939423660383326620151114522367516134297574063808137220778171429984182126704179024641653211098859937801703036173032771026944, 0)) (.leaf (26993482767259178296863231046115891153218182709811499798604533435671025484028927221914244116623345142899525463801125370739249596332965798134051091085190983130808320, 3)))) (.node 2 (.node 1 (.leaf (3599131035634557106248430806148785487095757694641533306480604458089470064537190296255232548883112685719936728506816716098566612844395439751206812144692131084107776, 0)) (.leaf (25193917249441899743739015643041498409670303862490733145364231206626290451760332073786627842181788800039557099547717012689966289910768078258447685012844917588754432, 2))) (.node 1 (.leaf (17995655178172785531242154030743927435478788473207666532403022290447350322685951481276162744415563428599683642534083580492833064221977198756034060723460655420538880, 1)) (.leaf (489481820846299766449786589636234826245023046471248529681362206300167928777057880290711626648103325257911395076927073389405059346837779806164126451678129827438657536, 1))))))

/-- What is reached without input. -/
def nvpClosures17 : Tree (Nat × Nat) :=
  .node 16 (.node 8 (.node 4 (.node 2 (.node 1 (.leaf (662240110556758507549711268331376529625619415814042128392431220288462491874843014510962788994492734172468358045254275762136256763368760914222053434623352119475830784, 3)) (.leaf (604654013986605593849736375432995961832087292699777595488741548959030970842247969770879068212362931200949370389145208304559190957858433878202744440308278022130106368, 2))) (.node 1 (.leaf (230344386280611654799899571593522271174128492457058131614758685317726084130380178960334883128519211886075950624436269830308263222041308144077235977260296389382897664, 0)) (.leaf (460688772561223309599799143187044542348256984914116263229517370635452168260760357920669766257038423772151901248872539660616526444082616288154471954520592778765795328, 0)))) (.node 2 (.node 1 (.leaf (65648150089974321617971377904153847284626620350261567510206225315551933977158351003695441691627975387531645927964336901637855018281772821062012253519184470974125834240, 2)) (.leaf (1842755090244893238399196572748178169393027939656465052918069482541808673043041431682679065028153695088607604995490158642466105776330465152617887818082371115063181312, 0))) (.node 1 (.leaf (3685510180489786476798393145496356338786055879312930105836138965083617346086082863365358130056307390177215209990980317284932211552660930305235775636164742230126362624, 0)) (.leaf (110795649800974205958751693936484212434755804871844961306698927637826246466712866079921078784817740917202532250353845788378274609801869217301150505062202563293173776384, 2))))) (.node 4 (.node 2 (.node 1 (.leaf (14742040721959145907193572581985425355144223517251720423344555860334469384344331453461432520225229560708860839963921269139728846210643721220943102544658968920505450496, 0)) (.leaf (29484081443918291814387145163970850710288447034503440846689111720668938768688662906922865040450459121417721679927842538279457692421287442441886205089317937841010900992, 0))) (.node 1 (.leaf (59198507274117195283574189899535223691751022561463939824992982126655603621507705992806064964029437454721519310480121346389223648064616193027849646155896172071404699648, 1)) (.leaf (117936325775673167257548580655883402841153788138013763386756446882675755074754651627691460161801836485670886719711370153117830769685149769767544820357271751364043603968, 0)))) (.node 2 (.node 1 (.leaf (235872651551346334515097161311766805682307576276027526773512893765351510149509303255382920323603672971341773439422740306235661539370299539535089640714543502728087207936, 0)) (.leaf (7076179546540390035452914839353004170469227288280825803205386812960545304485279097661487609708110189140253203182682209187069846181108986186052689221436305081842616238080, 3))) (.node 1 (.leaf (943490606205385338060388645247067222729230305104110107094051575061406040598037213021531681294414691885367093757690961224942646157481198158140358562858174010912348831744, 0)) (.leaf (6604434243437697366422720516729470559104612135728770749658361025429842284186260491150721769060902843197569656303836728574598523102368387106982509940007218076386441822208, 2)))))) (.node 8 (.node 4 (.node 2 (.node 1 (.leaf (4717453031026926690301943226235336113646151525520550535470257875307030202990186065107658406472073459426835468788454806124713230787405990790701792814290870054561744158720, 1)) (.leaf (243499748569841558970198345084801024968764510512522865656619447747493825107170572876444532737702424875498706839868028626155292513233843202440499307712449866166587794564703244517376, 4))) (.node 1 (.leaf (256629444887864811952425711507202284582350642988317949129582028416702443042666121941856617312080796192819849502091941453184399754834885899014177529097423330968158882234368, 1)) (.leaf (347204543083581804406223021450920737964356752278312519410610979622597422940077694391923658716344606613815090502830273730778893785953080922195651951131808036015744370081792, 3)))) (.node 2 (.node 1 (.leaf (317012843685009473588290584803014586837021382514980995983601329220632429640940503575234644914923336473483343502584162971580729108913682581135160477120346467666549207465984, 2)) (.leaf (9862755132605894691139778822773554750535031560614570835552490421807198632334859030641628635386556577042272639176535300895697379988904150049297052222717753515740789423161746997626050561925923385673519917684490240, 9))) (.node 1 (.leaf (241533595188578646543459493183249209018682958106652187416077203215719946393097526533512110411370161122653976001968886073585317416315186728483931792091692546793561300926464, 0)) (.leaf (1449201571131471879260756959099495254112097748639913124496463219294319678358585159201072662468220966735923856011813316441511904497891120370903590752550155280761367805558784, 1))))) (.node 4 (.node 2 (.node 1 (.leaf (966134380754314586173837972732996836074731832426608749664308812862879785572390106134048441645480644490615904007875544294341269665260746913935727168366770187174245203705856, 0)) (.leaf (1932268761508629172347675945465993672149463664853217499328617625725759571144780212268096883290961288981231808015751088588682539330521493827871454336733540374348490407411712, 0))) (.node 1 (.leaf (3864537523017258344695351890931987344298927329706434998657235251451519142289560424536193766581922577962463616031502177177365078661042987655742908673467080748696980814823424, 0)) (.leaf (1105257731582935886582870640806548380469493216296040409615969281915134474694814281417351417242429857297264594185009622672726412497058294469542471880611585094127336513039499264, 2)))) (.node 2 (.node 1 (.leaf (1097528656536901369893479937024684405780895361636627539618654811412231436410235160568279029709266012141339666952946618318371682339736208494230986063264650932629942551409852416, 1)) (.leaf (30916300184138066757562815127455898754391418637651479989257882011612153138316483396289550132655380623699708928252017417418920629288343901245943269387736645989575846518587392, 0))) (.node 1 (.leaf (61832600368276133515125630254911797508782837275302959978515764023224306276632966792579100265310761247399417856504034834837841258576687802491886538775473291979151693037174784, 0)) (.leaf (123665200736552267030251260509823595017565674550605919957031528046448612553265933585158200530621522494798835713008069669675682517153375604983773077550946583958303386074349568, 0))))))

/-- What is reached without input. -/
def nvpClosures18 : Tree (Nat × Nat) :=
  .node 16 (.node 8 (.node 4 (.node 2 (.node 1 (.leaf (247330401473104534060502521019647190035131349101211839914063056092897225106531867170316401061243044989597671426016139339351365034306751209967546155101893167916606772148699136, 0)) (.leaf (1592189459483110438014484979063978785851158059839051219446780923598025886623298894908911831831752102120535009804978896997074412408349710914166078373468437268463156095707250688, 2))) (.node 1 (.leaf (989321605892418136242010084078588760140525396404847359656252224371588900426127468681265604244972179958390685704064557357405460137227004839870184620407572671666427088594796544, 0)) (.leaf (9862755132605894691139778822773554752513674772399407108036510589964376152615909823451323354699061025785450440028790238258228588478848509966078423630846868230551709697615756677366419802741068729006374094874083328, 10)))) (.node 2 (.node 1 (.leaf (9862755132605894691139778822773554750534910793816976546229218692060607007730349689162575309292848538440664779203338752132430623933698464968735725234716769072703996764453589404261808596029877539400123137034027008, 8)) (.leaf (9862755132605894691139778822773554746577624370247304001261178355746251967168248103543185870667839640954309177498828877407368206953809745135172982418458539643082156215545570044781070114399586852734414782654840832, 7))) (.node 1 (.leaf (269095476802737733057826742869376142758222907822118481826500605029072180915906671481304244354632432948682266511505559601214285157325745316444690216750859766693268168097784659968, 1)) (.leaf (364070350968409874137059710940920663731713345876983828353500818568744715356814908474705742362149762224687772339095757107525209330499537781072227940309986743173245168602885128192, 3))))) (.node 4 (.node 2 (.node 1 (.leaf (332412059579852493777315388250405823407216533192028712844500747388853870543178829476905243026310652466019270396565691272088234606108273626196382032456944417679919501767851638784, 2)) (.leaf (9862755132605894691139778822773567022080110283371538492122301602875587790807366694889224485445439643629385664888460274550985678568618668846801198451486230330031538928221623154031840131561296889761730066890358784, 9))) (.node 1 (.leaf (253266331108459042877954581524118722595974501479640924072000569439126758509088631982403994686712878069348015540240526683495797795130113239006767262824338603946605334680267915264, 0)) (.leaf (9862755132605894691139778822773570567808745801798138783486442940537704134450387409862161493453411791404004792129308028206911292548911639719018761818859799271200670749806969248773519672301752142236415590641172480, 11)))) (.node 2 (.node 1 (.leaf (1013065324433836171511818326096474890383898005918563696288002277756507034036354527929615978746851512277392062160962106733983191180520452956027069051297354415786421338721071661056, 0)) (.leaf (9862755132605894691139778822773569048210759151043881515758953795825368558603378532016617061449995156643453737597516133782943172271643223630925520375699698296413899969127535208169942726270128462604407509033680896, 10))) (.node 1 (.leaf (9862755132605894691139778822773566895446944729142017053145010840816226492820115955068762449445154924066006410344144283348988335212179634172793428331222888582132641363165003650648208719391994916459062726756401152, 8)) (.leaf (9862755132605894691139778822773562843185646993797331005871706454916664957228092280813977297436043898037870264926032564885073347806130524604544784482795952649367919281353179542372003529974331770773707842469756928, 7)))))) (.node 8 (.node 4 (.node 2 (.node 1 (.leaf (145881406718472408697701838957892384215281312852273172265472327996937012901235052021864700939546617767944456951178543369693579529994945225667897943386819035873244672775834319192064, 1)) (.leaf (243135677864120681162836398263153973692135521420455287109120546661561688168725086703107834899244362946574094918630905616155965883324908709446496572311365059788741121293057198653440, 3))) (.node 1 (.leaf (210717587482237923674458211828066777199850785231061248827904473773353463079561741809360123579345114553697548929480118200668503765548254214853630362669849718483575638453982905499648, 2)) (.leaf (129672361527531029953512745740348785969138944757576153124864291552832900356653379574990845279596993571506183956603149661949848471106617978371464838566061365220661931356297172615168, 0)))) (.node 2 (.node 1 (.leaf (12509374196022482296253997070921840703652458207767863067351702080139310608135425546410435302490136418191077209641369512609510859846152844924662981457605490522749444832936728586569486696448, 4)) (.leaf (8817720583872110036838866710343717445901448243515178412490771825592637224252429811099377479012595562862420509049014177012589696035250022529259609022492172835005011332228207737831424, 1))) (.node 1 (.leaf (11929857260532854755723172608112088309160782917697006087487514822860626832812110920899157765722923408578568924007489768899386059341808854010174765148077645600300897684779339880595456, 3)) (.leaf (10892478368312606516095070642189298021407671359636396862488600490437963629958883884299231003486147460006519452354664571603787271572955910183203046439549154678535602233928962499674112, 2))))) (.node 4 (.node 2 (.node 1 (.leaf (9862755143628382140118799713824346140662753419845235462383893046171253735523525210589738841289873041747518277701453901583810693064775653925357495177643530353351795990126608193286016479095304807065530541344292864, 9)) (.leaf (8299031137761985917024815727382322302024892464484873799991314659381305622825816292799414097894207588576395773222601578364790302150823550615773749668227927374122363606803019047370752, 0))) (.node 1 (.leaf (49794186826571915502148894364293933812149354786909242799947887956287833736954897756796484587365245531458374639335609470188741812904941303694642498009367564244734181640818114284224512, 1)) (.leaf (33196124551047943668099262909529289208099569857939495199965258637525222491303265171197656391576830354305583092890406313459161208603294202463094998672911709496489454427212076189483008, 0)))) (.node 2 (.node 1 (.leaf (66392249102095887336198525819058578416199139715878990399930517275050444982606530342395312783153660708611166185780812626918322417206588404926189997345823418992978908854424152378966016, 0)) (.leaf (132784498204191774672397051638117156832398279431757980799861034550100889965213060684790625566307321417222332371561625253836644834413176809852379994691646837985957817708848304757932032, 0))) (.node 1 (.leaf (37976366486398847556305556768501506854065907917482782508760255881328854530050935355850118911963893925325587058266624822597280422642168567617780678481810995663983935864730615160768561152, 2)) (.leaf (37710797489990464006960762665225272540401111358619266547160533812228652750120509234480537660831279282491142393523501572089607132973342213998075918492427701988012020229312918551252697088, 1))))))

/-- What is reached without input. -/
def nvpClosures19 : Tree (Nat × Nat) :=
  .node 16 (.node 8 (.node 4 (.node 2 (.node 1 (.leaf (1062275985633534197379176413104937254659186235454063846398888276400807119721704485478325004530458571337778658972493002030693158675305414478819039957533174703887662541670786438063456256, 0)) (.leaf (2124551971267068394758352826209874509318372470908127692797776552801614239443408970956650009060917142675557317944986004061386317350610828957638079915066349407775325083341572876126912512, 0))) (.node 1 (.leaf (4249103942534136789516705652419749018636744941816255385595553105603228478886817941913300018121834285351114635889972008122772634701221657915276159830132698815550650166683145752253825024, 0)) (.leaf (8498207885068273579033411304839498037273489883632510771191106211206456957773635883826600036243668570702229271779944016245545269402443315830552319660265397631101300333366291504507650048, 0)))) (.node 2 (.node 1 (.leaf (54707213260127011165027585274904268614948091125884288089542746234641566665667781002133737733318616423895600937083389604580697671778228845659180557812958497250214620896045501560267997184, 2)) (.leaf (33992831540273094316133645219357992149093959534530043084764424844825827831094543535306400144974674282808917087119776064982181077609773263322209278641061590524405201333465166018030600192, 0))) (.node 1 (.leaf (9862755143628382140118799781810009221208942052112525901099877344359172804583611380118588530941528703936605348314254191533159258682609828164909625142005685572898322634545165475409197527905707473995862577405493248, 10)) (.leaf (9862755143628382140118799713820196625093872426886723054520201885020241289291282773689743183960182388936105369555054194534863589270487456038746194388461135202276384214818721318451902515408243625262129031820607488, 8))))) (.node 4 (.node 2 (.node 1 (.leaf (9862755143628382140118799577848870464001495162352142177088233288644403151171110434632043804656871064557931228329453614636166458034819107559641934459736824763183330925981606754205540417787438291401464959698206720, 7)) (.leaf (9246050178954281653988351499665373864553556993392171719055923557792625170057715841603340839433111404924025447696579089675153253109858327623640923790368752622638214762702525156904323252224, 1))) (.node 1 (.leaf (12509362006820498708337181440723741110866577108707055855193308342895904641842792020992755253350680136073681488060077591913442636560396560902573014539910665312981114090715181094635260870656, 3)) (.leaf (11421591397531759690220904793704285362095570403602094476480846747861478151247766627862950448711490559023796141272244757834012842076883816476262317623396694416200147648044295782058281664512, 2)))) (.node 2 (.node 1 (.leaf (9862755143628382140119221360902622172555769748622023971054819246494307599945706191615518403528599285654117310142452460394667551078036089741056233362547806829834632898710985046420767237525583927181416683385389056, 9)) (.leaf (8702164874309912144930213176155645990168053640839691029699692760275411924760203145038438437113516616399082774302662672635438355868101955410485575332111767174247731541367082500615833649152, 0))) (.node 1 (.leaf (9862755143628382140119343191210862511325798771606490150098681599245279355620121987314162259295545928498147848280572049627297138236876327018473129499529960257210379696765634611161206705767163066336425305056477184, 11)) (.leaf (34808659497239648579720852704622583960672214563358764118798771041101647699040812580153753748454066465596331097210650690541753423472407821641942301328447068696990926165468330002463334596608, 0)))))) (.node 8 (.node 4 (.node 2 (.node 1 (.leaf (9862755143628382140119290978221616651852929190327433216222740590923434317473943789157600606823997367279277617649949368527598743740230511042437316869394751645477916783313641940558161219377914863841421610054582272, 10)) (.leaf (9862755143628382140119217009820185017599697283515435893231824162467487180100191341769138265822636905552544790923233903636359351536648938409719915643369872778856927655923318990537180113659813243640166375468564480, 8))) (.node 1 (.leaf (9862755143628382140119077775182196059005378400104617402895981473609233745043716146684973859231840742302224175908240087370496966212260095806957748629675983147570359886718005202262392149955151370320156522130178048, 7)) (.leaf (104944488283589827544406079935755809892694816998212084506709939616733193241247349684655231561199171170860516239656001924311570229413268451837005276505929753626283155332565806251106697621975072768, 4)))) (.node 2 (.node 1 (.leaf (1113877103911668754551067286547922686741510866027480451801560673315252726369306002564920119950530126899082595110740822097336109551117050292542153642510306198303709637294986560078826707091456, 0)) (.leaf (7797139727381681281857471005835458807190576062192363162610924713206769084585142017954440839653710888293578165775185754681352766857819352047795075497572143388125967461064905920551786949640192, 2))) (.node 1 (.leaf (5569385519558343772755336432739613433707554330137402259007803366576263631846530012824600599752650634495412975553704110486680547755585251462710768212551530991518548186474932800394133535457280, 1)) (.leaf (8911016831293350036408538292383381493932086928219843614412485386522021810954448020519360959604241015192660760885926576778688876408936402340337229140082449586429677098359892480630613656731648, 0))))) (.node 4 (.node 2 (.node 1 (.leaf (89110168312933500364085382923833814939320869282198436144124853865220218109544480205193609596042410151926607608859265767786888764089364023403372291400824495864296770983598924806306136567316480, 1)) (.leaf (9862755187718331939492355768978691568558009931427818485466739475142766152869693383336141719230280527043034885358471276259639861065022342925108369914340020397683066176970753264820423222336754483273369880493031424, 9))) (.node 1 (.leaf (71288134650346800291268306339067051951456695425758748915299883092176174487635584164154887676833928121541286087087412614229511011271491218722697833120659596691437416786879139845044909253853184, 0)) (.leaf (9862755187718331940490389654083546772635766220174757212787133211103388637683891746626608162057178705341203312834146269961217866284246119524321524072140897459800835840659987618500547057353062441103998610046976000, 11)))) (.node 2 (.node 1 (.leaf (285152538601387201165073225356268207805826781703034995661199532368704697950542336656619550707335712486165144348349650456918044045085964874890791332482638386765749667147516559380179637015412736, 0)) (.leaf (9862755187718331940062660846181465970888156382140354901078393038548836144192092448073551115131365200356273986773142701231970149761721643838944458004511950147464648841936030038351922556631787602033729154523856896, 10))) (.node 1 (.leaf (9862755187718331939456711701653518168412375778258284959491011127429886778412043441790053631986462734960957441520054312198869218021478636617993614408704274788321717260410423466474704513943314913350847425866104832, 8)) (.leaf (9862755187718331938316101547247969363752082876833212128267704000617746795767245312315234840184293388334479238690711462254208640628080034790321438228360415288758551930479869919411705845353248675830128877804453888, 7))))))

/-- What is reached without input. -/
def nvpClosures20 : Tree (Nat × Nat) :=
  .node 16 (.node 8 (.node 4 (.node 2 (.node 1 (.leaf (77561490499577318716899917296904952523184884623225518819846272804287677842547515570600517792395313796236919262751104924281707980263382445970295242435277641200283909464124504151408861268192264192, 1)) (.leaf (104936134205310490028746946931106700472544255666716878403321427911683328845799579889635994660299542194908773120192671368145840208591635073959811210353610926329795877510286093851906106421671886848, 3))) (.node 1 (.leaf (95811252970066099591464603719706117822757798652219758542163042875884778511382225116624169037664799395351488501045482553524462799148884197963305887714166497953291888161565563951740358037178679296, 2)) (.leaf (36499524940977561749129372845602330599145828057988479444633540143194201337669419092047302490538971198229138476588755258485509637771003503986021290557777713506015957394882119600662993537972830208, 0)))) (.node 2 (.node 1 (.leaf (72999049881955123498258745691204661198291656115976958889267080286388402675338838184094604981077942396458276953177510516971019275542007007972042581115555427012031914789764239201325987075945660416, 0)) (.leaf (1058486223288349290724751812522467587375229013681665903894372664152631838792413153669371772225630164748645015821073902496079779495359101615594617426175553691674462764451581468419226812601212076032, 2))) (.node 1 (.leaf (291996199527820493993034982764818644793166624463907835557068321145553610701355352736378419924311769585833107812710042067884077102168028031888170324462221708048127659159056956805303948303782641664, 0)) (.leaf (620491923996618549735199338375239620185479076985804150558770182434301422740380124564804142339162510369895354102008839394253663842107059567762361939482221129602271275712996033211270890145538113536, 1))))) (.node 4 (.node 2 (.node 1 (.leaf (1167984798111281975972139931059274579172666497855631342228273284582214442805421410945513679697247078343332431250840168271536308408672112127552681297848886832192510636636227827221215793215130566656, 0)) (.leaf (11679847981112819759721399310592745791726664978556313422282732845822144428054214109455136796972470783433324312508401682715363084086721121275526812978488868321925106366362278272212157932151305666560, 1))) (.node 1 (.leaf (9862755187718785114136548415843548944724748072519785460422257731954251400512066952569405760087401554389245364898422975348212811826572187222639650647178186729975786638709653519412723364570078032516459252341014528, 9)) (.leaf (9343878384890255807777119448474196633381331982845050737826186276657715542443371287564109437577976626746659450006721346172290467269376897020421450382791094657540085093089822617769726345721044533248, 0)))) (.node 2 (.node 1 (.leaf (9862755187718915928433936879424857824397026711272652799070017562664580967119940160586999967285427451921371456571197428580512905925418599289181421923736472630281145714034859080604026622086726808685299346964480000, 11)) (.leaf (37375513539561023231108477793896786533525327931380202951304745106630862169773485150256437750311906506986637800026885384689161869077507588081685801531164378630160340372359290471078905382884178132992, 0))) (.node 1 (.leaf (9862755187718859865163627537890011161680335866092852511078120492360154010002280214293745307057702067264745988711436948623812865597341565546377805662354350101578848967466913840093468083151020190327225020697280512, 10)) (.leaf (9862755187718780442197355970715645056165023835421468769756266309428882487418928623711634538401757772334526575910109602018487808465899101077406015958729676519250595243162324749370176819658769147653286391818747904, 8)))))) (.node 8 (.node 4 (.node 2 (.node 1 (.leaf (9862755187718630940143197726622720622253848248275334668444540788617077268438502100262955444461156746583525328284081655467287700924360344429929705928377349776044470585647804108008687382496884832031754855106215936, 7)) (.leaf (28106386181749889469793575301010383473211046604397912619381168320186408351669660832992841188234553693253951625620217809286249725546285706237427722751435612729880575960014186434251336847928901956009984, 4))) (.node 1 (.leaf (20332279365521196637723011919879851874237778394670830405509781338007189020356775921739502136169677139800730963214625649270904056778164127916437076032953421974807225162563454016266924528288992904347648, 1)) (.leaf (27508377965116913098095839656308034888674641357495829372160292398480314556953285070588738184229563189142165420819787643131223135641045584828120749926936982671798010514056437786714074361802755105882112, 3)))) (.node 2 (.node 1 (.leaf (25116345098585007611304897077498640550529020369887496383276788711655939378087782020972326168209601172695020601618066978511116776020085099190892858628942462439467748730225443196565024417298167705370624, 2)) (.leaf (9862755365006239871913588297434371925468567839983911583400297551083226083153039810161221281949947674417027644028611182319616264825085780802084439356455087731794082810008445195703703551660101887690691557990596608, 9))) (.node 1 (.leaf (19136262932255243894327540630475154705164967900866663911068029494595001430924024396931296128159696131577158553613765316960850876967683885097823130383956161858642094270647956721192399556036699204091904, 0)) (.leaf (9862755365274147552965161711954957494295220005856221134012430845838178496077369830194157623506985820211263389870691402070208979262537693079632013747824611557169469076029434515492774945756795481475205346847883264, 11))))) (.node 4 (.node 2 (.node 1 (.leaf (76545051729020975577310162521900618820659871603466655644272117978380005723696097587725184512638784526308634214455061267843403507870735540391292521535824647434568377082591826884769598224146796816367616, 0)) (.leaf (9862755365159329975371630248588992250512369077625231326607230862371770319109799821608613477125398043442305213081228450748526387360772587817825910437237672774865732104877581949868887205429641084138985151623331840, 10))) (.node 1 (.leaf (9862755364996671740447460675487208155153330262631329099449864219127692068405742309445759269751482026352947795962822603042809382166605355363600597413906176166602104729079124148568379573299505687912673208388550656, 8)) (.leaf (9862755364690491533531376773177967505065727787348689613035997596550603596492222286550974879400581288302392657857588066184989137095231741332117655252341006080458806139340850640238012265760427295016086021123080192, 7)))) (.node 2 (.node 1 (.leaf (9862755132605894691139778822773554738663051523107958911325097683117541886044044932304406993417821845981597974089809127957243372994032305468047496785942080783838475117729531325819593151139005479402998073896468480, 6)) (.leaf (2449441655328671218473925200700819802261115891310932980616707775308160183158275122807205904404441104841876294862561960570988912251863537292521360689146388717906188066642938460312627143172697498123763712, 0))) (.node 1 (.leaf (9862755143628382140118799305906218141816740633282980422224296095892726874930765756516645046050248415801582945878252454838772195563482410601433414602288203884997224348307377625712816222545827623680136815453405184, 6)) (.leaf (9797766621314684873895700802803279209044463565243731922466831101232640732633100491228823617617764419367505179450247842283955649007454149170085442756585554871624752266571753841250508572690789992495054848, 0))))))

/-- What is reached without input. -/
def nvpClosures21 : Tree (Nat × Nat) :=
  .node 16 (.node 8 (.node 4 (.node 2 (.node 1 (.leaf (9862755187718331936034881238436871754431497073983066465821089746993466830477649053365597256579954695081522833032025762364887485841282831134977085867672696289632221270618762825285708508173116200788691781681152000, 6)) (.leaf (39191066485258739495582803211213116836177854260974927689867324404930562930532401964915294470471057677470020717800991369135822596029816596680341771026342219486499009066287015365002034290763159969980219392, 0))) (.node 1 (.leaf (9862755364078131119699208968559486204890522836783410640208264351396426652665182240761406098698779812201282381647118992469348646952484513269151770929210665908172208959864303623577277650682270509222911646592139264, 6)) (.leaf (156764265941034957982331212844852467344711417043899710759469297619722251722129607859661177881884230709880082871203965476543290384119266386721367084105368877945996036265148061460008137163052639879920877568, 0)))) (.node 2 (.node 1 (.leaf (9862755128931732208146771995062666937611821819716285074358698212192480223081804657566994309207012989374936316826994685663400432137548937090252190847160039750118892040870249225855185460670064764643951826710822912, 5)) (.leaf (627057063764139831929324851379409869378845668175598843037877190478889006888518431438644711527536922839520331484815861906173161536477065546885468336421475511783984145060592245840032548652210559519683510272, 0))) (.node 1 (.leaf (9862843857506254833932989994529137124108338926378331921594988071814932985876279382925042877433694135849518108953899787107860155639906348595027075140929643388903809474626775299657971825275699052438123861927526400, 6)) (.leaf (2508228255056559327717299405517639477515382672702395372151508761915556027554073725754578846110147691358081325939263447624692646145908262187541873345685902047135936580242368983360130194608842238078734041088, 0))))) (.node 4 (.node 2 (.node 1 (.leaf (5016456510113118655434598811035278955030765345404790744303017523831112055108147451509157692220295382716162651878526895249385292291816524375083746691371804094271873160484737966720260389217684476157468082176, 0)) (.leaf (9862905309098503719636519068364572306275538053253813130281605783779599916998954457731323864615423834467956381946385299062326960609736923347450669916826612693503964305072991237698064148465466969072956790911533056, 6))) (.node 1 (.leaf (20065826040452474621738395244141115820123061381619162977212070095324448220432589806036630768881181530864650607514107580997541169167266097500334986765487216377087492641938951866881041556870737904629872328704, 0)) (.leaf (40131652080904949243476790488282231640246122763238325954424140190648896440865179612073261537762363061729301215028215161995082338334532195000669973530974432754174985283877903733762083113741475809259744657408, 0)))) (.node 2 (.node 1 (.leaf (9862835078707362135975342983981217812370167622538977463211185541534266281430182943667002736407732750332598355669258999685793469215644837916109418744372933488246644498848744451366530064820017921490290586358382592, 5)) (.leaf (481579824970859390921721485859386779682953473158859911453089682287786757290382155344879138453148356740751614580338581943940988060014386340008039682371693193050099823406534844805144997364897709711116935888896, 1))) (.node 1 (.leaf (321053216647239593947814323906257853121968982105906607635393121525191171526921436896586092302098904493834409720225721295960658706676257560005359788247795462033399882271023229870096664909931806474077957259264, 0)) (.leaf (4494745033061354315269400534687609943707565749482692506895503701352676401376900116552205292229384662913681736083160098143449221893467605840075037035469136468467598351794325218181353308739045290637091401629696, 2)))))) (.node 8 (.node 4 (.node 2 (.node 1 (.leaf (3852638599766875127373771886875094237463627785270879291624717458302294058323057242759033107625186853926012916642708655551527904480115090720064317458973545544400798587252278758441159978919181677688935487111168, 1)) (.leaf (2568425733177916751582514591250062824975751856847252861083144972201529372215371495172688738416791235950675277761805770367685269653410060480042878305982363696267199058168185838960773319279454451792623658074112, 0))) (.node 1 (.leaf (15410554399067500509495087547500376949854511141083517166498869833209176233292228971036132430500747415704051666570834622206111617920460362880257269835894182177603194349009115033764639915676726710755741948444672, 1)) (.leaf (10273702932711667006330058365000251299903007427389011444332579888806117488861485980690754953667164943802701111047223081470741078613640241920171513223929454785068796232672743355843093277117817807170494632296448, 0)))) (.node 2 (.node 1 (.leaf (10499724397231323680469319649030256828500873590791569696107896646359864267946713344110605397012021452122242365951756774306655425925013863850770051224309497736055401515303886783621334323835095142583242734071447552, 7)) (.leaf (41094811730846668025320233460001005199612029709556045777330319555224469955445943922763019814668659775210804444188892325882964314454560967680686052895717819140275184930690973423372373108471271228681978529185792, 0))) (.node 1 (.leaf (10438082179635053678431339298840255320701455546227235627441901167027027563013544428226460867290018462459426159285473435817830979453332022399249022144965921007344988737907850323486275764172388235740219766277668864, 6)) (.leaf (10355892556173360342380698831920253310302231486808123535887240527916578623102652540380934827660681142909004550397095651166065050824422900463887650039174485369064438368046468376639531017955445693282855809219297280, 5))))) (.node 4 (.node 2 (.node 1 (.leaf (328758493846773344202561867680008041596896237676448366218642556441795759643567551382104158517349278201686435553511138607063714515636487741445488423165742553122201479445527787386978984867770169829455828233486336, 0)) (.leaf (9862754815403200326076856030400241247906887130293450986559276693253884983637301213307778589884657225606474897066828943255469479050968168851719417404425871539381136148878176695559062540653790438538672066869067776, 4))) (.node 1 (.leaf (1315033975387093376810247470720032166387584950705793464874570225767183038574270205528416634069397112806745742214044554428254858062545950965781953692662970212488805917782111149547915939471080679317823312933945344, 0)) (.leaf (9205237827709653637671732295040225164713094654940554254121991580370281270019891438698916438485779789647220195498311880997784006437821656760473675848640791487421641424474778046835411576297564755224763190537617408, 2)))) (.node 2 (.node 1 (.leaf (6575169876935466884051237353600160831937924753528967324372851128835915192871351027642083170346985564033728711070222772141274290312729754828909768463314851062444029588910555747739579697355403396589116564669726720, 1)) (.leaf (31561297616172275666976692948091482759491591149920112829340826502910291989598721849424926505154855968778091410308715973189674368464753045394263858442942919241781684040445351175268719991303927785389996504590060527, 10))) (.node 1 (.leaf (21040543606193494028963959531520514662201359211292695437993123612274928617188323288454666145110353804907931875424712870852077729000735215452511259082607523399820894684513778392766655031537290869085173006943125504, 0)) (.leaf (294567610486708916405495433441287205270819028958097736131903730571849000640636526038365326031544953268711046255945980191929088206010293016335157627156505327597492525583192897498733170441522072167192422097203757056, 1))))))

/-- What is reached without input. -/
def nvpClosures22 : Tree (Nat × Nat) :=
  .node 1 (.leaf (84162174424773976115855838126082058648805436845170781751972494449099714468753293153818664580441415219631727501698851483408310916002940861810045036330430093599283578738055113571066620126149163476340692027772502016, 0)) (.leaf (168324348849547952231711676252164117297610873690341563503944988898199428937506586307637329160882830439263455003397702966816621832005881723620090072660860187198567157476110227142133240252298326952681384055545004032, 0))

/-- What is reached without input. -/
def nvpClosures : Tree (Nat × Nat) := (.node 352 (.node 160 (.node 64 (.node 32 nvpClosures0 nvpClosures1) (.node 32 nvpClosures2 (.node 32 nvpClosures3 nvpClosures4))) (.node 96 (.node 32 nvpClosures5 (.node 32 nvpClosures6 nvpClosures7)) (.node 32 nvpClosures8 (.node 32 nvpClosures9 nvpClosures10)))) (.node 192 (.node 96 (.node 32 nvpClosures11 (.node 32 nvpClosures12 nvpClosures13)) (.node 32 nvpClosures14 (.node 32 nvpClosures15 nvpClosures16))) (.node 96 (.node 32 nvpClosures17 (.node 32 nvpClosures18 nvpClosures19)) (.node 32 nvpClosures20 (.node 32 nvpClosures21 nvpClosures22)))))

/-- The transitions of the states. -/
def nvpRows0 : List (List (Nat × Nat)) := [
  [],
  [],
  [(6, 632696502290003723208585650693301269165862809254859005375635524590)],
  [],
  [],
  [],
  [],
  [],
  [(6, 2944)],
  [],
  [],
  [(85248, 3961856)],
  [(85248, 3961856), (2, 4162560)],
  [],
  [],
  [(2, 4162560), (85248, 3961856)],
  [],
  [],
  [],
  [(8192, 319492410764830468410041483491641655296)],
  [(6, 3670016)],
  [],
  [],
  [(6, 96468992)],
  [],
  [(64, 85899345920)],
  [(85248, 9563013120)],
  [(85248, 9563013120), (2, 16139681792)],
  [],
  [],
  [(2, 16139681792), (85248, 9563013120)],
  [],
  [],
  [],
  [],
  [],
  [(3072, 2095944040448), (3072, 68719476736)],
  [],
  [(8192, 16413364459389783916278071427275743361507524608)],
  [(6, 1924145348608)]]

/-- The transitions of the states. -/
def nvpRows1 : List (List (Nat × Nat)) := [
  [],
  [],
  [(6, 50577534877696)],
  [],
  [(64, 135107988821114880)],
  [(85248, 5013773022658560)],
  [(85248, 5013773022658560), (2, 8461841487364096)],
  [],
  [],
  [(2, 8461841487364096), (85248, 5013773022658560)],
  [],
  [],
  [],
  [],
  [(8192, 137696107511949683890019268356780962838393512502755328)],
  [(6, 126100789566373888)],
  [],
  [],
  [(6, 3314649325744685056)],
  [],
  [(64, 590295810358705651712)],
  [(85248, 328582628812951388160)],
  [(85248, 328582628812951388160), (2, 554555243715893395456)],
  [],
  [],
  [(2, 554555243715893395456), (85248, 328582628812951388160)],
  [],
  [],
  [],
  [(1024, 1180591620717411303424)],
  [(64, 35417748621522339102720)],
  [],
  [(8192, 137696107511949683890019268356780962838393512502755328)],
  [(6, 33056565380087516495872)],
  [],
  [],
  [(6, 868915432848014719320064)],
  [],
  [(64, 154742504910672534362390528)],
  [(85248, 86135964647542328697815040)]]

/-- The transitions of the states. -/
def nvpRows2 : List (List (Nat × Nat)) := [
  [(85248, 86135964647542328697815040), (2, 145373329808659158258417664)],
  [],
  [],
  [(2, 145373329808659158258417664), (85248, 86135964647542328697815040)],
  [],
  [],
  [],
  [(18432, 309485009821345068724781056)],
  [(64, 9284550294640352061743431680)],
  [],
  [(8192, 36877972695396749487535262861345040194601338236226202763264)],
  [(6, 8665580274997661924293869568)],
  [],
  [],
  [],
  [(6, 455561934457019941162877714432)],
  [],
  [],
  [(16, 1901475900342344102245054808064)],
  [(4098, 1440051081859268600100254841307136), (94184, 1440051081859268600100254841307136)],
  [(32768, 5070602400912917605986812821504), (32768, 2535301200456458802993406410752)],
  [(32768, 1450192286661094435312228466950144)],
  [(16, 1450192286661094435312228466950144)],
  [],
  [(4098, 1440051081859268600100254841307136), (94184, 1440051081859268600100254841307136)],
  [],
  [(32768, 324518553658426726783156020576256), (32768, 162259276829213363391578010288128)],
  [(32768, 2089088189176122053666566882459648)],
  [(16, 2089088189176122053666566882459648)],
  [],
  [(16, 12940774816429260564518648607137604657880140837266975409205001502851088)],
  [],
  [(6, 12940774816429260564518648607137604655283833951674533066264566250340368)],
  [],
  [],
  [(6, 477691310985204141824805662288248832)],
  [],
  [],
  [(94184, 12940774816429260564518648607137625408894377515380564302658394143064080)],
  [(94184, 12940774816429260564518648607137625408894377515380564302658394143064080)]]

/-- The transitions of the states. -/
def nvpRows3 : List (List (Nat × Nat)) := [
  [],
  [],
  [(6, 12940774816429260564518648607137620590442892795060525026357800626814992)],
  [],
  [],
  [(6, 319014718988379809496913694467282698240)],
  [],
  [(131072, 12940774816429260564518648607137604639706943376070050180673077262680080)],
  [],
  [],
  [(6, 15652988878363169319315231941861337726976)],
  [],
  [],
  [(16, 65334214448820184984967924626899496599552)],
  [(4098, 49479778409239820095282374917438552091394048), (94184, 49479778409239820095282374917438552091394048)],
  [(32768, 174224571863520493293247799005065324265472), (32768, 87112285931760246646623899502532662132736)],
  [(32768, 49828227552966861081868870515448682739924992)],
  [(16, 49828227552966861081868870515448682739924992)],
  [],
  [(4098, 49479778409239820095282374917438552091394048), (94184, 49479778409239820095282374917438552091394048)],
  [],
  [(32768, 11150372599265311570767859136324180752990208), (32768, 5575186299632655785383929568162090376495104)],
  [(32768, 71780523607770443236818093190086913597374464)],
  [(16, 71780523607770443236818093190086913597374464)],
  [],
  [(16, 12940774830891702962849561711441573547505589777185402752591243239227408)],
  [],
  [(6, 12940774830891702962849561622233148235512362195627115668278888923922448)],
  [],
  [],
  [(6, 16413348466118538632170288648669194068401586176)],
  [],
  [],
  [(94184, 12940774830891702962850274710861616450717935941754601872286404153704464)],
  [(94184, 12940774830891702962850274710861616450717935941754601872286404153704464)],
  [],
  [],
  [(6, 12940774830891702962850109150129262559371733180582145730850583755096080)],
  [],
  []]

/-- The transitions of the states. -/
def nvpRows4 : List (List (Nat × Nat)) := [
  [(32, 11692013098647223345629478661730264157247460343808)],
  [(6, 10230511461316320427425793829013981137591527800832)],
  [],
  [(32, 116920130986472233456294786617302641572474603438080)],
  [],
  [],
  [(94184, 12940774888741472562019217555849510467873999820434316979522485023146000)],
  [(94184, 12940774888741472562019217555849510467873999820434316979522485023146000)],
  [],
  [],
  [(6, 12940774888741472560662944036406432559780980295673606337281779623264272)],
  [],
  [],
  [(6, 137685146249669702118132740720535590715746093008683008)],
  [],
  [(32, 1532495540865888858358347027150309183618739122183602176)],
  [(33152, 1388824083909711777887251993354967697654482329478889472), (85248, 1388824083909711777887251993354967697654482329478889472)],
  [(33152, 1388824083909711777887251993354967697654482329478889472), (85248, 1388824083909711777887251993354967697654482329478889472)],
  [],
  [],
  [(32, 15324955408658888583583470271503091836187391221836021760)],
  [],
  [],
  [(94184, 12940774888742238803943643950955077968572835644160994270459846652330000)],
  [(94184, 12940774888742238803943643950955077968572835644160994270459846652330000)],
  [],
  [],
  [(6, 12940774888742061034460903507847508400317686208295694496721673354477584)],
  [],
  [],
  [],
  [(6, 36093334978473414392055789183444081892588543805668198449152)],
  [],
  [],
  [(94184, 12940775121709826363314480875527387447988591856792004866736931762864144)],
  [(94184, 12940775121709826363314480875527387447988591856792004866736931762864144)],
  [],
  [],
  [(6, 12940775121345754462662053391224911661442547204658068250958017761116176)],
  []]

/-- The transitions of the states. -/
def nvpRows5 : List (List (Nat × Nat)) := [
  [],
  [],
  [],
  [],
  [],
  [],
  [],
  [],
  [],
  [(85248, 12940891231055876907069160244581384295231683097065934775100030670864400)],
  [(2, 12940971860779185646165225838071329605406427251123350820513334752706576), (85248, 12940891231055876907069160244581384295231683097065934775100030670864400)],
  [],
  [],
  [(85248, 12940891231055876907069160244581384295231683097065934775100030670864400), (2, 12940971860779185646165225838071329605406427251123350820513334752706576)],
  [],
  [],
  [],
  [],
  [(85248, 5897488333439202455083409550285544209858125342430750230241414742016)],
  [(85248, 5897488333439202455083409550285544209858125342430750230241414742016)],
  [],
  [(512, 20219960000362979846000261315264723005227858316905429360827707686912)],
  [],
  [(33152, 13776532746913976935074844709467031274228580799918232537843944837349392), (85248, 13776532746913976935074844709467031274228580799918232537843944837349392)],
  [(33152, 13776532746913976935074844709467031274228580799918232537843944837349392), (85248, 13776532746913976935074844709467031274228580799918232537843944837349392)],
  [],
  [],
  [],
  [],
  [],
  [(131072, 294567610486708916405495433441287205270819028958097736131903730571849000640636526038365326031544953268711046255945980191929088206010293016335157627156505327597492525583192897498733170441522072167192422097203757056)],
  [(6, 12078056106883486628010822758984794541789440701298176471534417391648768)],
  [],
  [],
  [(6, 4366710773307200772128359439577152241546491984311069580710760894509929075805712077741302003490953465399097288259907657775911115832688640)],
  [],
  [],
  [],
  [],
  []]

/-- The transitions of the states. -/
def nvpRows6 : List (List (Nat × Nat)) := [
  [(6, 20318741244951419790207921258543562932016064814069618018398471314865127424)],
  [],
  [],
  [(85248, 27343725174510275884631112121497406950946140788047078995889977571204583653376)],
  [(85248, 27343725174510275884631112121497406950946140788047078995889977571204583653376), (2, 28728933273296529199024417362079855067354888163197564259057316833017997557760)],
  [],
  [],
  [(2, 28728933273296529199024417362079855067354888163197564259057316833017997557760), (85248, 27343725174510275884631112121497406950946140788047078995889977571204583653376)],
  [],
  [],
  [],
  [(8192, 2205055578823478880969377378449112859221103832135946884527863835768415240843941080232901849890351443519471616)],
  [(6, 25329519520662917748906152970650479842902809145608873383631346501730997108736)],
  [],
  [],
  [(6, 665804513114568123685533163799955470156302411827433243226881108045500495429632)],
  [],
  [(64, 592855496895058920568683443244482088208742321488079687882022830120515223756472320)],
  [(85248, 66001490865270231391435461454952107476363891259415121502490822884510483894763520)],
  [(85248, 66001490865270231391435461454952107476363891259415121502490822884510483894763520), (2, 111391989846298179997475287578357767354845725248346222605958195815612430713618432)],
  [],
  [],
  [(2, 111391989846298179997475287578357767354845725248346222605958195815612430713618432), (85248, 66001490865270231391435461454952107476363891259415121502490822884510483894763520)],
  [],
  [],
  [],
  [],
  [],
  [(3072, 14465674124239437661875876015165362952293312644309144384321357054940571459657924608), (3072, 474284397516047136454946754595585670566993857190463750305618264096412179005177856)],
  [],
  [(8192, 113280878196135518105463951093500938788444537059667957861385266779882112106878660894412858276647056551448097973075968)],
  [(6, 13279963130449319820738509128676398775875828001332985008557311394699541012144979968)],
  [],
  [],
  [(6, 349073316571810692430840811382351053537307478892181320224935042374959363747810902016)],
  [],
  [(64, 932481068268349954041341715275289075188355282745026970200869956674674056898500079124480)],
  [(85248, 34603789642770799075752915215293930524567871820616235222297908548474232580217776373760)],
  [(85248, 34603789642770799075752915215293930524567871820616235222297908548474232580217776373760), (2, 58401483572535980194516323573882037130937355599004944357632610567775810073981580476416)],
  []]

/-- The transitions of the states. -/
def nvpRows7 : List (List (Nat × Nat)) := [
  [],
  [(2, 58401483572535980194516323573882037130937355599004944357632610567775810073981580476416), (85248, 34603789642770799075752915215293930524567871820616235222297908548474232580217776373760)],
  [],
  [],
  [],
  [],
  [(8192, 950343606987879438393465831054100645491837484860553546379285103930294476687998834268083405398300101006442716011712466649088)],
  [(6, 870315663717126623771918934256936470175798263895358505520811959563029119771933407182848)],
  [],
  [],
  [(6, 22876868874850185539147583414753758644620982936677995002261342937085336862576535274520576)],
  [],
  [(64, 4074071952668972172536891376818756322102936787331872501272280898708762599526673412366794752)],
  [(85248, 2267793958028627088228543051549503030858080047635905591528515734632807306377152192430735360)],
  [(85248, 2267793958028627088228543051549503030858080047635905591528515734632807306377152192430735360), (2, 3827399627409717998027821781737933185413110536536388033421810766169755489008456858102398976)],
  [],
  [],
  [(2, 3827399627409717998027821781737933185413110536536388033421810766169755489008456858102398976), (85248, 2267793958028627088228543051549503030858080047635905591528515734632807306377152192430735360)],
  [],
  [],
  [],
  [(1024, 8148143905337944345073782753637512644205873574663745002544561797417525199053346824733589504)],
  [(64, 244444317160138330352213482609125379326176207239912350076336853922525755971600404742007685120)],
  [],
  [(8192, 950343606987879438393465831054100645491837484860553546379285103930294476687998834268083405398300101006442716011712466649088)],
  [(6, 228148029349462441662065917101850354037764460090584860071247730327690705573493711092540506112)],
  [],
  [],
  [(6, 5997033914328727037974304106677209306135522950952516321872797482899298546503263263003921874944)],
  [],
  [(64, 1067993517960455041197510853084776057301352261178326384973520803911109862890320275011481043468288)],
  [(85248, 594488579333456419416583189705392922521260536007466835385651228739582638522932184332562690211840)],
  [(85248, 594488579333456419416583189705392922521260536007466835385651228739582638522932184332562690211840), (2, 1003329847927693114875005313151908756956934448489794904633327161486804382910632914610395277164544)],
  [],
  [],
  [(2, 1003329847927693114875005313151908756956934448489794904633327161486804382910632914610395277164544), (85248, 594488579333456419416583189705392922521260536007466835385651228739582638522932184332562690211840)],
  [],
  [],
  [],
  [(18432, 2135987035920910082395021706169552114602704522356652769947041607822219725780640550022962086936576)]]

/-- The transitions of the states. -/
def nvpRows8 : List (List (Nat × Nat)) := [
  [(64, 64079611077627302471850651185086563438081135670699583098411248234666591773419216500688862608097280)],
  [],
  [(8192, 254522413327496676562862239560009636838891684653639412173852617751732815364969539614997650560340937833158958818722593507737862144)],
  [(6, 59807637005785482307060607772747459208875726625986277558517165019022152321857935400642938434224128)],
  [],
  [],
  [],
  [(6, 3144172916875579641285471951481580712695181056908992877362045246714307436349102889633800191970639872)],
  [],
  [],
  [(16, 13123504348698071546235013362705728192119016585359274618554623638459717995196255539341079062138322944)],
  [(4098, 9938867293414006184348650120022471484164801893978757311118701635526826428361964195127643876392756576256), (94184, 9938867293414006184348650120022471484164801893978757311118701635526826428361964195127643876392756576256)],
  [(32768, 34996011596528190789960035633881941845650710894291398982812329702559247987190014771576210832368861184), (32768, 17498005798264095394980017816940970922825355447145699491406164851279623993595007385788105416184430592)],
  [(32768, 10008859316607062565928570191290235367856103315767340109084326294931944924336344224670796298057494298624)],
  [(16, 10008859316607062565928570191290235367856103315767340109084326294931944924336344224670796298057494298624)],
  [],
  [(4098, 9938867293414006184348650120022471484164801893978757311118701635526826428361964195127643876392756576256), (94184, 9938867293414006184348650120022471484164801893978757311118701635526826428361964195127643876392756576256)],
  [],
  [(32768, 2239744742177804210557442280568444278121645497234649534899989100963791871180160945380877493271607115776), (32768, 1119872371088902105278721140284222139060822748617324767449994550481895935590080472690438746635803557888)],
  [(32768, 14418356777769614605463534681159360040408092888448056380918679837454410170722286085889398862935970807808)],
  [(16, 14418356777769614605463534681159360040408092888448056380918679837454410170722286085889398862935970807808)],
  [],
  [(16, 89313945313929977819865104036515092079036966348725880633914441514880350053558384783826921297832150631677890544207449855962466243127487234048)],
  [],
  [(6, 89313945313929977819865104036515092061117914785941055443492717019219237017902544221234278412414024938664350598266562604953834540366118780928)],
  [],
  [],
  [(6, 3296904260485727797940555036996749977395062171929404115372783956618701634377196911600651670095805674422272)],
  [],
  [],
  [(94184, 89313945313929977819865104036515235297273666540875929013041443932367711453375383371541334336517009775082096311919341602831284246184386887680)],
  [(94184, 89313945313929977819865104036515235297273666540875929013041443932367711453375383371541334336517009775082096311919341602831284246184386887680)],
  [],
  [],
  [(6, 89313945313929977819865104036515202041543734684839010656138462052107069903183040431465040141478838664700393028889624587562264149361931845632)],
  [],
  [],
  [(6, 2201758671350468651146388059490003463164702389601549878788085285811445961044945415747217810985720659092439040)],
  [],
  [(131072, 89313945313929977819865104036515091953610167161406453336735487551933911668063560353971100737214548092402340781618837226671714863328977223680)]]

/-- The transitions of the states. -/
def nvpRows9 : List (List (Nat × Nat)) := [
  [],
  [],
  [(6, 108032958807596328482916107452309503259281397249782714052535384690481615155271988399330153925699360339469008896)],
  [],
  [],
  [(16, 450920175892575979754780274583552709256131049390397415175799866534184132822004821145030207689875590982131515392)],
  [(4098, 341496879875977542000953594617943918476643248071660975759805765588555449923864984547169543957132447570467600990208), (94184, 341496879875977542000953594617943918476643248071660975759805765588555449923864984547169543957132447570467600990208)],
  [(32768, 1202453802380202612679414065556140558016349465041059773802132977424491020858679523053413887173001575952350707712), (32768, 601226901190101306339707032778070279008174732520529886901066488712245510429339761526706943586500787976175353856)],
  [(32768, 343901787480737947226312422749056199592675947001743095307410031543404431965582343593276371731478450722372302405632)],
  [(16, 343901787480737947226312422749056199592675947001743095307410031543404431965582343593276371731478450722372302405632)],
  [],
  [(4098, 341496879875977542000953594617943918476643248071660975759805765588555449923864984547169543957132447570467600990208), (94184, 341496879875977542000953594617943918476643248071660975759805765588555449923864984547169543957132447570467600990208)],
  [],
  [(32768, 76957043352332967211482500195592995713046365762627825523336510555167425334955489475418488779072100860950445293568), (32768, 38478521676166483605741250097796497856523182881313912761668255277583712667477744737709244389536050430475222646784)],
  [(32768, 495410966580643476423918595009129909902735979596916626806478786698890300593775963498006521515276649292368491577344)],
  [(16, 495410966580643476423918595009129909902735979596916626806478786698890300593775963498006521515276649292368491577344)],
  [],
  [(16, 89313945413746086808214443290970006994731725659784430693021273581105670198130689859749530911573960814060609951655711633294047961645494304768)],
  [],
  [(6, 89313945413746086808214442675276083494743606636278197438728678484296733176325552555126129814690042790014860413212382216743084774793420996608)],
  [],
  [],
  [(6, 113280767814634127735302240287912889689604250402588159170351343537206450093054480507816015482794132467319055472132096)],
  [],
  [],
  [(94184, 89313945413746086808219364232112551892662715365130706001990519225479984751023420971649153881875063863477792376406781435737344277670835257344)],
  [(94184, 89313945413746086808219364232112551892662715365130706001990519225479984751023420971649153881875063863477792376406781435737344277670835257344)],
  [],
  [],
  [(6, 89313945413746086808218221573932856452765559272967801837190171913041141253070050471140430755943690444370061362685389773183760885459116359680)],
  [],
  [],
  [(32, 80695308690215893426747474125094121072803306025913234775958104891895238188026287332176417290004307232371974124148359168)],
  [(6, 70608395103938906748404039859457355938702892772674080428963341780408333414523001415654365128753768828325477358629814272)],
  [],
  [(32, 806953086902158934267474741250941210728033060259132347759581048918952381880262873321764172900043072323719741241483591680)],
  [],
  [],
  [(94184, 89313945813010522801959433105737591812738970842512187440784124095576853566674448204931331978423084857235673484151408815910344854618505216000)],
  [(94184, 89313945813010522801959433105737591812738970842512187440784124095576853566674448204931331978423084857235673484151408815910344854618505216000)]]

/-- The transitions of the states. -/
def nvpRows10 : List (List (Nat × Nat)) := [
  [],
  [],
  [(6, 89313945813010522792598777297672548175236263844001269396338940596570918332663308037471484348612035526703209078510909176955195856217295552512)],
  [],
  [],
  [(6, 950267955135982360993378255297108369753331731761154252721682643206958324902197559623709490007090721968412367285971077562368)],
  [],
  [(32, 10576895500643977583230644928524336637254474927428499508554380724390492659780981533203027367035444557561459392400373732868096)],
  [(33152, 9585311547458604684802771966475180077511867902982077679627407531478883972926514514465243551375871630290072574362838695411712), (85248, 9585311547458604684802771966475180077511867902982077679627407531478883972926514514465243551375871630290072574362838695411712)],
  [(33152, 9585311547458604684802771966475180077511867902982077679627407531478883972926514514465243551375871630290072574362838695411712), (85248, 9585311547458604684802771966475180077511867902982077679627407531478883972926514514465243551375871630290072574362838695411712)],
  [],
  [],
  [(32, 105768955006439775832306449285243366372544749274284995085543807243904926597809815332030273670354445575614593924003737328680960)],
  [],
  [],
  [(94184, 89313945813015811209362100749421260421829495948283754141846185332374513369057591005313603375176542704830982561428035929420557979410759680000)],
  [(94184, 89313945813015811209362100749421260421829495948283754141846185332374513369057591005313603375176542704830982561428035929420557979410759680000)],
  [],
  [],
  [(6, 89313945813014584289484026048021605667017787125233832622754603626431521060893561708165068781318691153656406449859358800131039536057746980864)],
  [],
  [],
  [],
  [(6, 249107042831166960040248149356605176480617393490796020425472774820844883123161677069997700548418790219687491609813602156509396992)],
  [],
  [],
  [(94184, 89313947420899007567860570923024395572590367675901464646539601877576160474493133538639796845435099130976157050189527131310797868490370842624)],
  [(94184, 89313947420899007567860570923024395572590367675901464646539601877576160474493133538639796845435099130976157050189527131310797868490370842624)],
  [],
  [],
  [(6, 89313947418386275657563582456531457718210698069662193546980268106327913354561132978440948624555122325444280557538766346377025881520363012096)],
  [],
  [],
  [],
  [],
  [],
  [],
  [],
  [],
  []]

/-- The transitions of the states. -/
def nvpRows11 : List (List (Nat × Nat)) := [
  [],
  [(85248, 89314748778153940149595112669377372936405748972142155740862640453506782173026136268164145260997948949969281843643949622198759463460431462400)],
  [(2, 89315305264052228973620689495417787189877363478808931968752543469440529849981098088449191876021151675199164302449554419741239825889803370496), (85248, 89314748778153940149595112669377372936405748972142155740862640453506782173026136268164145260997948949969281843643949622198759463460431462400)],
  [],
  [],
  [(85248, 89314748778153940149595112669377372936405748972142155740862640453506782173026136268164145260997948949969281843643949622198759463460431462400), (2, 89315305264052228973620689495417787189877363478808931968752543469440529849981098088449191876021151675199164302449554419741239825889803370496)],
  [],
  [],
  [],
  [],
  [(85248, 40702968560553985870762133241728253923803916198489811375763451154115800134350283706266698839970759671402701209950905964277937691202420736)],
  [(85248, 40702968560553985870762133241728253923803916198489811375763451154115800134350283706266698839970759671402701209950905964277937691202420736)],
  [],
  [(512, 139553035064756522985470171114496870595899141251965067574046118242682743317772401278628681737042604587666404148403106163238643512694013952)],
  [],
  [(33152, 95082134557454110994100343252677201166005948239672199373783421896014619541783811386859607446265491024803949244188871058738145047036435628032), (85248, 95082134557454110994100343252677201166005948239672199373783421896014619541783811386859607446265491024803949244188871058738145047036435628032)],
  [(33152, 95082134557454110994100343252677201166005948239672199373783421896014619541783811386859607446265491024803949244188871058738145047036435628032), (85248, 95082134557454110994100343252677201166005948239672199373783421896014619541783811386859607446265491024803949244188871058738145047036435628032)],
  [],
  [],
  [],
  [],
  [],
  [(4096, 1429023079063106795371214552212447954902007206420122291958232250805071291573989389093157700987316270977703978479647807111563709569986702868480)],
  [(6, 83359679612014563063320848879059464035950420374507133697563547963629158675149381030434199224260115807032732077979455414841216391582557667328)],
  [],
  [],
  [(131072, 294567610486708916405495433441287205270819028958097736131903730571849000640636526038365326031544953268711046255945980191929088206010293016335157627156505327597492525583192897498733170441522072167192422097203757056)],
  [(6, 1333754873792233009013133582064951424575206725992114139161016767418066538802390096486947187588161852912523713247671286637459462265320922677248)],
  [],
  [],
  [(6, 482206882034623530753650810710766189552332981069672351141084497899063811870205969620086717196901976616444930100174927246705382939461320987040110529419774305316801598079427418370989875274569127320502707159040)],
  [],
  [],
  [],
  [],
  [],
  [(6, 2243756770539619416305523008913838282256804915040448014680019064730735937276706539461470011576884854271125606743511010206103232519488455063896064)],
  [],
  [],
  [(85248, 3019511285293143485803849920517440109235331553492693345668519569197640814373418296061366078188162609104342599127180555995622054475791593962509172736)]]

/-- The transitions of the states. -/
def nvpRows12 : List (List (Nat × Nat)) := [
  [(85248, 3019511285293143485803849920517440109235331553492693345668519569197640814373418296061366078188162609104342599127180555995622054475791593962509172736), (2, 3172476964258627105141548184777305258217012862483276932060618260219284029575586811447261077238273715691174118752129480517499005284076719942517391360)],
  [],
  [],
  [(2, 3172476964258627105141548184777305258217012862483276932060618260219284029575586811447261077238273715691174118752129480517499005284076719942517391360), (85248, 3019511285293143485803849920517440109235331553492693345668519569197640814373418296061366078188162609104342599127180555995622054475791593962509172736)],
  [],
  [],
  [],
  [(8192, 243499748569841558970198345084801024968764510512522865656619447747493825107170572876444532737702424875498706839868028626155292513233843202440499307712449866166587794564703244517376)],
  [(6, 2797086701083129039317911117894677009950743935827814151169804635824333077982509995627794268344888806159204930284780334114321386208642303634435997696)],
  [],
  [],
  [(6, 73523421857042249033499377956088652832990983456045400545034864713096755192683119885073449339351362904756243881771368782433590723198597695533746225152)],
  [],
  [(64, 65467812157922837400263793936551983044332840920861295789665827361922675928093491097665401846518083143017733682551201420184345130917707861066570551787520)],
  [(85248, 7288408775393753382451242684342701237357367055642761445333890936776547906057283188607281064944395974906271132627770470606460297777947945470301799710720)],
  [(85248, 7288408775393753382451242684342701237357367055642761445333890936776547906057283188607281064944395974906271132627770470606460297777947945470301799710720), (2, 12300788143734720620908939407609962439189100188646204404230180844173752781801941100772288393818436715543566367698096829339324221863834953583211107581952)],
  [],
  [],
  [(2, 12300788143734720620908939407609962439189100188646204404230180844173752781801941100772288393818436715543566367698096829339324221863834953583211107581952), (85248, 7288408775393753382451242684342701237357367055642761445333890936776547906057283188607281064944395974906271132627770470606460297777947945470301799710720)],
  [],
  [],
  [],
  [],
  [],
  [(3072, 1597414616653317232566436572051868386281721318469015617267846187630913292645481182783035805055041228689632701854249314652498021194392071810024321463615488), (3072, 52374249726338269920211035149241586435466272736689036631732661889538140742474792878132321477214466514414186946040961136147476104734166288853256441430016)],
  [],
  [(8192, 12509374196022482296253997070921840703652458207767863067351702080139310608135425546410435302490136418191077209641369512609510859846152844924662981457605490522749444832936728586569486696448)],
  [(6, 1466478992337471557765908984178764420193055636627293025688514532907067940789294200587705001362005062403597234489146911812129330932556656087891180360040448)],
  [],
  [],
  [(6, 38547447798584966661275321869841807616503176734203130960955239150700071586461447558305388607229847354608841592286147396204542413084346388595996740892491776)],
  [],
  [(64, 102971964901959145724728511986220898259041529502149581140916951887783147750964840781838394609921818324659444670872212870556829819995749657188610424366725857280)],
  [(85248, 3821225260033640173378597124488666146331619258868832112651215011460702748570960888388534174977567476891659079583148524493319856601404772434733589966733967360)],
  [(85248, 3821225260033640173378597124488666146331619258868832112651215011460702748570960888388534174977567476891659079583148524493319856601404772434733589966733967360), (2, 6449155614302389204895106024137011987317574959704941214685033054430168498465376095841701537418280548718905323787699790460655617632546300144234585171926450176)],
  [],
  [],
  [(2, 6449155614302389204895106024137011987317574959704941214685033054430168498465376095841701537418280548718905323787699790460655617632546300144234585171926450176), (85248, 3821225260033640173378597124488666146331619258868832112651215011460702748570960888388534174977567476891659079583148524493319856601404772434733589966733967360)],
  [],
  []]

/-- The transitions of the states. -/
def nvpRows13 : List (List (Nat × Nat)) := [
  [],
  [],
  [(8192, 104944488283589827544406079935755809892694816998212084506709939616733193241247349684655231561199171170860516239656001924311570229413268451837005276505929753626283155332565806251106697621975072768)],
  [(6, 96107167241828536009746611187139505041772094202006275731522488428597604567567184729715834969260363769682148359480732012519707831996033013376036396075610800128)],
  [],
  [],
  [(6, 2526245538928064375113339494061952703955152190452736390657162552980279891490337427181101947763415276231645042592064955757660891583895724923027242411130341031936)],
  [],
  [(64, 449891379454319638281053850768598185886969711830191663310075557261183758067148787031904068610389085714992091063352089512320826605549429968900851518086516385513472)],
  [(85248, 250427818641564642402539741150489224565988999749227781334710026991088615330346492781430975691329862165571769439561221701194210122229663166282700552059877284904960)],
  [(85248, 250427818641564642402539741150489224565988999749227781334710026991088615330346492781430975691329862165571769439561221701194210122229663166282700552059877284904960), (2, 422651862338921378932005668397843217600844592559223027445598326255135522715426887817081751956244434040842179299750693467629526557166554326252557773827371838734336)],
  [],
  [],
  [(2, 422651862338921378932005668397843217600844592559223027445598326255135522715426887817081751956244434040842179299750693467629526557166554326252557773827371838734336), (85248, 250427818641564642402539741150489224565988999749227781334710026991088615330346492781430975691329862165571769439561221701194210122229663166282700552059877284904960)],
  [],
  [],
  [],
  [(1024, 899782758908639276562107701537196371773939423660383326620151114522367516134297574063808137220778171429984182126704179024641653211098859937801703036173032771026944)],
  [(64, 26993482767259178296863231046115891153218182709811499798604533435671025484028927221914244116623345142899525463801125370739249596332965798134051091085190983130808320)],
  [],
  [(8192, 104944488283589827544406079935755809892694816998212084506709939616733193241247349684655231561199171170860516239656001924311570229413268451837005276505929753626283155332565806251106697621975072768)],
  [(6, 25193917249441899743739015643041498409670303862490733145364231206626290451760332073786627842181788800039557099547717012689966289910768078258447685012844917588754432)],
  [],
  [],
  [(6, 662240110556758507549711268331376529625619415814042128392431220288462491874843014510962788994492734172468358045254275762136256763368760914222053434623352119475830784)],
  [],
  [(64, 117936325775673167257548580655883402841153788138013763386756446882675755074754651627691460161801836485670886719711370153117830769685149769767544820357271751364043603968)],
  [(85248, 65648150089974321617971377904153847284626620350261567510206225315551933977158351003695441691627975387531645927964336901637855018281772821062012253519184470974125834240)],
  [(85248, 65648150089974321617971377904153847284626620350261567510206225315551933977158351003695441691627975387531645927964336901637855018281772821062012253519184470974125834240), (2, 110795649800974205958751693936484212434755804871844961306698927637826246466712866079921078784817740917202532250353845788378274609801869217301150505062202563293173776384)],
  [],
  [],
  [(2, 110795649800974205958751693936484212434755804871844961306698927637826246466712866079921078784817740917202532250353845788378274609801869217301150505062202563293173776384), (85248, 65648150089974321617971377904153847284626620350261567510206225315551933977158351003695441691627975387531645927964336901637855018281772821062012253519184470974125834240)],
  [],
  [],
  [],
  [(18432, 235872651551346334515097161311766805682307576276027526773512893765351510149509303255382920323603672971341773439422740306235661539370299539535089640714543502728087207936)],
  [(64, 7076179546540390035452914839353004170469227288280825803205386812960545304485279097661487609708110189140253203182682209187069846181108986186052689221436305081842616238080)],
  [],
  [(8192, 28106386181749889469793575301010383473211046604397912619381168320186408351669660832992841188234553693253951625620217809286249725546285706237427722751435612729880575960014186434251336847928901956009984)],
  [(6, 6604434243437697366422720516729470559104612135728770749658361025429842284186260491150721769060902843197569656303836728574598523102368387106982509940007218076386441822208)]]

/-- The transitions of the states. -/
def nvpRows14 : List (List (Nat × Nat)) := [
  [],
  [],
  [],
  [(6, 347204543083581804406223021450920737964356752278312519410610979622597422940077694391923658716344606613815090502830273730778893785953080922195651951131808036015744370081792)],
  [],
  [],
  [(16, 1449201571131471879260756959099495254112097748639913124496463219294319678358585159201072662468220966735923856011813316441511904497891120370903590752550155280761367805558784)],
  [(4098, 1097528656536901369893479937024684405780895361636627539618654811412231436410235160568279029709266012141339666952946618318371682339736208494230986063264650932629942551409852416), (94184, 1097528656536901369893479937024684405780895361636627539618654811412231436410235160568279029709266012141339666952946618318371682339736208494230986063264650932629942551409852416)],
  [(32768, 3864537523017258344695351890931987344298927329706434998657235251451519142289560424536193766581922577962463616031502177177365078661042987655742908673467080748696980814823424), (32768, 1932268761508629172347675945465993672149463664853217499328617625725759571144780212268096883290961288981231808015751088588682539330521493827871454336733540374348490407411712)],
  [(32768, 1105257731582935886582870640806548380469493216296040409615969281915134474694814281417351417242429857297264594185009622672726412497058294469542471880611585094127336513039499264)],
  [(16, 1105257731582935886582870640806548380469493216296040409615969281915134474694814281417351417242429857297264594185009622672726412497058294469542471880611585094127336513039499264)],
  [],
  [(4098, 1097528656536901369893479937024684405780895361636627539618654811412231436410235160568279029709266012141339666952946618318371682339736208494230986063264650932629942551409852416), (94184, 1097528656536901369893479937024684405780895361636627539618654811412231436410235160568279029709266012141339666952946618318371682339736208494230986063264650932629942551409852416)],
  [],
  [(32768, 247330401473104534060502521019647190035131349101211839914063056092897225106531867170316401061243044989597671426016139339351365034306751209967546155101893167916606772148699136), (32768, 123665200736552267030251260509823595017565674550605919957031528046448612553265933585158200530621522494798835713008069669675682517153375604983773077550946583958303386074349568)],
  [(32768, 1592189459483110438014484979063978785851158059839051219446780923598025886623298894908911831831752102120535009804978896997074412408349710914166078373468437268463156095707250688)],
  [(16, 1592189459483110438014484979063978785851158059839051219446780923598025886623298894908911831831752102120535009804978896997074412408349710914166078373468437268463156095707250688)],
  [],
  [(16, 9862755132605894691139778822773554752513674772399407108036510589964376152615909823451323354699061025785450440028790238258228588478848509966078423630846868230551709697615756677366419802741068729006374094874083328)],
  [],
  [(6, 9862755132605894691139778822773554750534910793816976546229218692060607007730349689162575309292848538440664779203338752132430623933698464968735725234716769072703996764453589404261808596029877539400123137034027008)],
  [],
  [],
  [(6, 364070350968409874137059710940920663731713345876983828353500818568744715356814908474705742362149762224687772339095757107525209330499537781072227940309986743173245168602885128192)],
  [],
  [],
  [(94184, 9862755132605894691139778822773570567808745801798138783486442940537704134450387409862161493453411791404004792129308028206911292548911639719018761818859799271200670749806969248773519672301752142236415590641172480)],
  [(94184, 9862755132605894691139778822773570567808745801798138783486442940537704134450387409862161493453411791404004792129308028206911292548911639719018761818859799271200670749806969248773519672301752142236415590641172480)],
  [],
  [],
  [(6, 9862755132605894691139778822773566895446944729142017053145010840816226492820115955068762449445154924066006410344144283348988335212179634172793428331222888582132641363165003650648208719391994916459062726756401152)],
  [],
  [],
  [(6, 243135677864120681162836398263153973692135521420455287109120546661561688168725086703107834899244362946574094918630905616155965883324908709446496572311365059788741121293057198653440)],
  [],
  [(131072, 9862755132605894691139778822773554738663051523107958911325097683117541886044044932304406993417821845981597974089809127957243372994032305468047496785942080783838475117729531325819593151139005479402998073896468480)],
  [],
  [],
  [(6, 11929857260532854755723172608112088309160782917697006087487514822860626832812110920899157765722923408578568924007489768899386059341808854010174765148077645600300897684779339880595456)],
  []]

/-- The transitions of the states. -/
def nvpRows15 : List (List (Nat × Nat)) := [
  [],
  [(16, 49794186826571915502148894364293933812149354786909242799947887956287833736954897756796484587365245531458374639335609470188741812904941303694642498009367564244734181640818114284224512)],
  [(4098, 37710797489990464006960762665225272540401111358619266547160533812228652750120509234480537660831279282491142393523501572089607132973342213998075918492427701988012020229312918551252697088), (94184, 37710797489990464006960762665225272540401111358619266547160533812228652750120509234480537660831279282491142393523501572089607132973342213998075918492427701988012020229312918551252697088)],
  [(32768, 132784498204191774672397051638117156832398279431757980799861034550100889965213060684790625566307321417222332371561625253836644834413176809852379994691646837985957817708848304757932032), (32768, 66392249102095887336198525819058578416199139715878990399930517275050444982606530342395312783153660708611166185780812626918322417206588404926189997345823418992978908854424152378966016)],
  [(32768, 37976366486398847556305556768501506854065907917482782508760255881328854530050935355850118911963893925325587058266624822597280422642168567617780678481810995663983935864730615160768561152)],
  [(16, 37976366486398847556305556768501506854065907917482782508760255881328854530050935355850118911963893925325587058266624822597280422642168567617780678481810995663983935864730615160768561152)],
  [],
  [(4098, 37710797489990464006960762665225272540401111358619266547160533812228652750120509234480537660831279282491142393523501572089607132973342213998075918492427701988012020229312918551252697088), (94184, 37710797489990464006960762665225272540401111358619266547160533812228652750120509234480537660831279282491142393523501572089607132973342213998075918492427701988012020229312918551252697088)],
  [],
  [(32768, 8498207885068273579033411304839498037273489883632510771191106211206456957773635883826600036243668570702229271779944016245545269402443315830552319660265397631101300333366291504507650048), (32768, 4249103942534136789516705652419749018636744941816255385595553105603228478886817941913300018121834285351114635889972008122772634701221657915276159830132698815550650166683145752253825024)],
  [(32768, 54707213260127011165027585274904268614948091125884288089542746234641566665667781002133737733318616423895600937083389604580697671778228845659180557812958497250214620896045501560267997184)],
  [(16, 54707213260127011165027585274904268614948091125884288089542746234641566665667781002133737733318616423895600937083389604580697671778228845659180557812958497250214620896045501560267997184)],
  [],
  [(16, 9862755143628382140118799781810009221208942052112525901099877344359172804583611380118588530941528703936605348314254191533159258682609828164909625142005685572898322634545165475409197527905707473995862577405493248)],
  [],
  [(6, 9862755143628382140118799713820196625093872426886723054520201885020241289291282773689743183960182388936105369555054194534863589270487456038746194388461135202276384214818721318451902515408243625262129031820607488)],
  [],
  [],
  [(6, 12509362006820498708337181440723741110866577108707055855193308342895904641842792020992755253350680136073681488060077591913442636560396560902573014539910665312981114090715181094635260870656)],
  [],
  [],
  [(94184, 9862755143628382140119343191210862511325798771606490150098681599245279355620121987314162259295545928498147848280572049627297138236876327018473129499529960257210379696765634611161206705767163066336425305056477184)],
  [(94184, 9862755143628382140119343191210862511325798771606490150098681599245279355620121987314162259295545928498147848280572049627297138236876327018473129499529960257210379696765634611161206705767163066336425305056477184)],
  [],
  [],
  [(6, 9862755143628382140119217009820185017599697283515435893231824162467487180100191341769138265822636905552544790923233903636359351536648938409719915643369872778856927655923318990537180113659813243640166375468564480)],
  [],
  [],
  [(32, 8911016831293350036408538292383381493932086928219843614412485386522021810954448020519360959604241015192660760885926576778688876408936402340337229140082449586429677098359892480630613656731648)],
  [(6, 7797139727381681281857471005835458807190576062192363162610924713206769084585142017954440839653710888293578165775185754681352766857819352047795075497572143388125967461064905920551786949640192)],
  [],
  [(32, 89110168312933500364085382923833814939320869282198436144124853865220218109544480205193609596042410151926607608859265767786888764089364023403372291400824495864296770983598924806306136567316480)],
  [],
  [],
  [(94184, 9862755187718331940490389654083546772635766220174757212787133211103388637683891746626608162057178705341203312834146269961217866284246119524321524072140897459800835840659987618500547057353062441103998610046976000)],
  [(94184, 9862755187718331940490389654083546772635766220174757212787133211103388637683891746626608162057178705341203312834146269961217866284246119524321524072140897459800835840659987618500547057353062441103998610046976000)],
  [],
  [],
  [(6, 9862755187718331939456711701653518168412375778258284959491011127429886778412043441790053631986462734960957441520054312198869218021478636617993614408704274788321717260410423466474704513943314913350847425866104832)],
  []]

/-- The transitions of the states. -/
def nvpRows16 : List (List (Nat × Nat)) := [
  [],
  [(6, 104936134205310490028746946931106700472544255666716878403321427911683328845799579889635994660299542194908773120192671368145840208591635073959811210353610926329795877510286093851906106421671886848)],
  [],
  [(32, 1167984798111281975972139931059274579172666497855631342228273284582214442805421410945513679697247078343332431250840168271536308408672112127552681297848886832192510636636227827221215793215130566656)],
  [(33152, 1058486223288349290724751812522467587375229013681665903894372664152631838792413153669371772225630164748645015821073902496079779495359101615594617426175553691674462764451581468419226812601212076032), (85248, 1058486223288349290724751812522467587375229013681665903894372664152631838792413153669371772225630164748645015821073902496079779495359101615594617426175553691674462764451581468419226812601212076032)],
  [(33152, 1058486223288349290724751812522467587375229013681665903894372664152631838792413153669371772225630164748645015821073902496079779495359101615594617426175553691674462764451581468419226812601212076032), (85248, 1058486223288349290724751812522467587375229013681665903894372664152631838792413153669371772225630164748645015821073902496079779495359101615594617426175553691674462764451581468419226812601212076032)],
  [],
  [],
  [(32, 11679847981112819759721399310592745791726664978556313422282732845822144428054214109455136796972470783433324312508401682715363084086721121275526812978488868321925106366362278272212157932151305666560)],
  [],
  [],
  [(94184, 9862755187718915928433936879424857824397026711272652799070017562664580967119940160586999967285427451921371456571197428580512905925418599289181421923736472630281145714034859080604026622086726808685299346964480000)],
  [(94184, 9862755187718915928433936879424857824397026711272652799070017562664580967119940160586999967285427451921371456571197428580512905925418599289181421923736472630281145714034859080604026622086726808685299346964480000)],
  [],
  [],
  [(6, 9862755187718780442197355970715645056165023835421468769756266309428882487418928623711634538401757772334526575910109602018487808465899101077406015958729676519250595243162324749370176819658769147653286391818747904)],
  [],
  [],
  [],
  [(6, 27508377965116913098095839656308034888674641357495829372160292398480314556953285070588738184229563189142165420819787643131223135641045584828120749926936982671798010514056437786714074361802755105882112)],
  [],
  [],
  [(94184, 9862755365274147552965161711954957494295220005856221134012430845838178496077369830194157623506985820211263389870691402070208979262537693079632013747824611557169469076029434515492774945756795481475205346847883264)],
  [(94184, 9862755365274147552965161711954957494295220005856221134012430845838178496077369830194157623506985820211263389870691402070208979262537693079632013747824611557169469076029434515492774945756795481475205346847883264)],
  [],
  [],
  [(6, 9862755364996671740447460675487208155153330262631329099449864219127692068405742309445759269751482026352947795962822603042809382166605355363600597413906176166602104729079124148568379573299505687912673208388550656)],
  [],
  [],
  [],
  [],
  [],
  [],
  [],
  [],
  [],
  [],
  [(85248, 9862843857506254833932989994529137124108338926378331921594988071814932985876279382925042877433694135849518108953899787107860155639906348595027075140929643388903809474626775299657971825275699052438123861927526400)],
  [(2, 9862905309098503719636519068364572306275538053253813130281605783779599916998954457731323864615423834467956381946385299062326960609736923347450669916826612693503964305072991237698064148465466969072956790911533056), (85248, 9862843857506254833932989994529137124108338926378331921594988071814932985876279382925042877433694135849518108953899787107860155639906348595027075140929643388903809474626775299657971825275699052438123861927526400)],
  []]

/-- The transitions of the states. -/
def nvpRows17 : List (List (Nat × Nat)) := [
  [],
  [(85248, 9862843857506254833932989994529137124108338926378331921594988071814932985876279382925042877433694135849518108953899787107860155639906348595027075140929643388903809474626775299657971825275699052438123861927526400), (2, 9862905309098503719636519068364572306275538053253813130281605783779599916998954457731323864615423834467956381946385299062326960609736923347450669916826612693503964305072991237698064148465466969072956790911533056)],
  [],
  [],
  [],
  [],
  [(85248, 4494745033061354315269400534687609943707565749482692506895503701352676401376900116552205292229384662913681736083160098143449221893467605840075037035469136468467598351794325218181353308739045290637091401629696)],
  [(85248, 4494745033061354315269400534687609943707565749482692506895503701352676401376900116552205292229384662913681736083160098143449221893467605840075037035469136468467598351794325218181353308739045290637091401629696)],
  [],
  [(512, 15410554399067500509495087547500376949854511141083517166498869833209176233292228971036132430500747415704051666570834622206111617920460362880257269835894182177603194349009115033764639915676726710755741948444672)],
  [],
  [(33152, 10499724397231323680469319649030256828500873590791569696107896646359864267946713344110605397012021452122242365951756774306655425925013863850770051224309497736055401515303886783621334323835095142583242734071447552), (85248, 10499724397231323680469319649030256828500873590791569696107896646359864267946713344110605397012021452122242365951756774306655425925013863850770051224309497736055401515303886783621334323835095142583242734071447552)],
  [(33152, 10499724397231323680469319649030256828500873590791569696107896646359864267946713344110605397012021452122242365951756774306655425925013863850770051224309497736055401515303886783621334323835095142583242734071447552), (85248, 10499724397231323680469319649030256828500873590791569696107896646359864267946713344110605397012021452122242365951756774306655425925013863850770051224309497736055401515303886783621334323835095142583242734071447552)],
  [],
  [],
  [],
  [],
  [],
  [(4096, 31561297616172275666976692948091482759491591149920112829340826502910291989598721849424926505154855968778091410308715973189674368464753045394263858442942919241781684040445351175268719991303927785389996504590060527)],
  [(6, 9205237827709653637671732295040225164713094654940554254121991580370281270019891438698916438485779789647220195498311880997784006437821656760473675848640791487421641424474778046835411576297564755224763190537617408)],
  [],
  [],
  [],
  [],
  [],
  []]

/-- The transitions of the states. -/
def nvpRows : List (List (Nat × Nat)) := nvpRows0 ++ (nvpRows1 ++ (nvpRows2 ++ (nvpRows3 ++ (nvpRows4 ++ (nvpRows5 ++ (nvpRows6 ++ (nvpRows7 ++ (nvpRows8 ++ (nvpRows9 ++ (nvpRows10 ++ (nvpRows11 ++ (nvpRows12 ++ (nvpRows13 ++ (nvpRows14 ++ (nvpRows15 ++ (nvpRows16 ++ (nvpRows17)))))))))))))))))

/-- The tables. -/
def nvpTables : List TagTable := [⟨[(bs "COPY_TO_NAME", 22574054295509033949455694649658755297655028913400702988285165035074590639811166775879510808040062747035246748465559060786193730912511048349660910149521089847380466848390167781687281085223219261289938362368), (bs "COPY_TO_MINOR", 41094811730846960021519761280494998234594794528200838943954783463060027395908516315727093355150346786684858006254985915056937507351467957122296250057918375148076077229291599354135486789523920400093397362147328), (bs "COPY_TO_VALUE", 76582427527747884923702710543122393215652219002011656026354295255266152019353601832249002593325741344223268396511626488785514835498583862020138348924248973704269670576627792514260574653812575649660928)], bs "COPY_NOWHERE"⟩, ⟨[(bs "GOT_NAMEVALUE", 2449441655328671218473925200700819802261115891310932980616707775308160205339632675773724781031754577986545922354058563577521513615700182209495037010239891018252520823944245564647359240388837715587629056), (bs "GOT_NAMEVALUE_CONT", 9797766621314684873895700802803279209044463565243731922466831101232640821358530703094899124127018311946183689416234254310086054462800728837980148040959564073010083295776982258589436961555350862350516224), (bs "GOT_NAMEVALUE_CSET", 39191066485258739495582803211213116836177854260974927689867324404930563285434122812379596496508073247784734757664937017240344217851202915351920592163838256292040333183107929034357747846221403449402064896), (bs "GOT_NAMEVALUE_CCONT", 156764265941034957982331212844852467344711417043899710759469297619722253141736491249518385986032292991138939030659748068961376871404811661407682368655353025168161332732431716137430991384885613797608259584), (bs "GOT_NAME", 5016456510113118655434598811035278955034450869644600664063370007794353475513592616862113512897791721563388166325679791285820829091669121855480202255449131077195659299642259507041618018938493169175541858304), (bs "GOT_NAME_TRAILING_SPACE", 40131652080904949243476790488282231640275606957156805312506960062354827804108740934896908103182333772507105330605438330286566632733352974843841618043593048617565274397138076056332944151507945353404334866432), (bs "GOT_MAJORMINOR", 328758493846773344202561867680008041596896237676448366218642556441795762620698966096909982207379595310953008266026151982318489428620343585344443894790310907437459875262484638361045678444795634746881756803104768), (bs "GOT_TERMINATOR", 105202718030967470144819797657602573311006796056463477189965618061374643085941616442273330725551769024539659377123564354260388645003676077262556295413037616999104473422568891963833275157686454345425865034715627520)], bs "GOT_NOTHING"⟩, ⟨[], bs "0"⟩]

/-- The sets that can be reached. -/
def nvpPairs0 : Tree (PairNode Nat) :=
  .node 16 (.node 8 (.node 4 (.node 2 (.node 1 (.leaf (482206882034623530753650810710766189552332981069672351141084497899063816236916742927287489325261416193597171646666911557774963650222215496969819031634142050342013674683586118737443997991481762236994175372271, 1, 0)) (.leaf (0, 0, 1))) (.node 1 (.leaf (482206882034623530753650810710766189552332981069672351141084497899063816236916742927287489325261416193597171646666911557774963650222215496969819031634142050342013674683586118737443997991481762236994175372270, 1, 0)) (.leaf (9867338602539316188248259395063824734052046557776215135716079309591993047953228865142475967003411786590312315503815186831336763623238318787393634780035612599358504659958801514658890140058017423390009045116810256, 0, 2)))) (.node 2 (.node 1 (.leaf (9862905309098503719636519068364572306275538164049885589567318582173235852341224037974926336730953266634259531348965600112146754330737772974180483343639155569276578785053117850172758978493761979612526421485782032, 0, 4)) (.leaf (9205237827709653637671732295040225164713094654940554254121991583167368054462700090031390619701305678657428167276546406674722339825702723701673945344840722659290653317034343061698758719649047612901494555923709952, 1, 5))) (.node 1 (.leaf (117936775770024651946958165357300083689354509918750167413410258960445758880120821415008632234730178226495426570951704979370446845640539796104959389624582018402741125120, 2, 8)) (.leaf (15410554399067500509495087547500376949854511141083517166498869833209176372845264035792655415970918530200922262469975874171179191966578605563020807568295823786130931652928967423174016177099795378760082350145536, 1, 9))))) (.node 4 (.node 2 (.node 1 (.leaf (31561297616172275666976692948091482759491591149920112829340826502910293418621800912531721876369408181226046312315922393311966326697003850465555432432332012399482671356716328879247199639111039349099566491292929007, 0, 6)) (.leaf (243499748569841558970198345084801024968764510512522865656619447747493827312226151699923413707079803324611566060971860762102177041097678970856059644064294929536847726399638405644288, 1, 7))) (.node 1 (.leaf (294567610486708916405495433441287205270819028958097736131903730571849000640636526038365326031544953268711046255945980191929088206010293016335157627156505327597492525583192897498733170441522072167192422097203757056, 0, 3)) (.leaf (9862843857506254833932989994529137124108338992026732443209183805890640371511148996465369775840420268685670379843928110534703503025581400027437753711161526317420883138226697232493797718673029983071204021098017808, 0, 10)))) (.node 2 (.node 1 (.leaf (96107167241828536009746611187139505041772094202006275731522488428597605437882848446842458741179298026618618535278995907878213352807992576405282268798584356864, 2, 15)) (.leaf (899782760558428142941763204023843978975049396377570917825855768421946373802892927729666979711213849930575291297573265348983433043914289281429639817003956147585024, 2, 17))) (.node 1 (.leaf (235872651551347984303963540967269292329914777386000243961104099470005411864345859627741330633122795793818751120592227658400092083189195615387051007922050734140130590720, 2, 18)) (.leaf (104944488283589827544406079935755809892694816998212084506709939616733194191590956672534669954665002224961161731493486784865116608698372382131619660612275971393578572901023593656661102846944477184, 1, 16)))))) (.node 8 (.node 4 (.node 2 (.node 1 (.leaf (235872651551346334515097161311766805682307576276027526773512893765351512285496339176293002718625379140893888042127262662888431486411907361755124906364914870758898925568, 3, 19)) (.leaf (10499724397231323680469319649030256828500873590791569696107896646359864363028847901564716391112364704799443531957705013978854799708435759865403369540867798572597922625504378618844807093506072113266133715344424976, 0, 20))) (.node 1 (.leaf (482206882034623530753650810710766189552332981069672351141084497900397571110708975936300622907326367618172378372659025696935980417640282035772209128121089237930175527596109831985115284628941224502315098049518, 1, 11)) (.leaf (243499748562293634120555262380317915806787972730689023215786566890741414711734903306787530853438427237615553928463256344754104635885249163290878608488130932533170450535353640026112, 1, 7)))) (.node 2 (.node 1 (.leaf (9862755132605894691139778822773570567808745801798138783486442940537704223764332723792139313318515827919240089402974569082840305590355572086743155969059600073099525915423881956278725969158735537823320169171124240, 0, 14)) (.leaf (1449201571131471879260756959099495254112097748639913124496463219294319691482089507899144208703234329441652048130829901800786523052514758830623487424706036965942674998689792, 1, 13))) (.node 1 (.leaf (9862755132605894691139778822773554738663051523107958911325097683117541975357990246234384813282925882496689927699976289363696709729519857401972105624318864015503730980884761332800081713352302201298534480136372240, 0, 12)) (.leaf (1466478992337471557765908984178764420193055636627293025688514532907067954069257331037024822100514191079996010364974913145114339489868050787434116650369024, 2, 27))))) (.node 4 (.node 2 (.node 1 (.leaf (26993482767259178296863231046115891153218182709811499798604533435671025728473244382052574468836827752024904789977332610651599672669819720659842480434217247477596160, 2, 15)) (.leaf (1649788866379655502486647607201109972717187591205704653899578849520451448327914497416652924863078464964995511660596777288253631926101557135863381231665152, 2, 29))) (.node 1 (.leaf (12509374196022482296253997070921840703652458207767863067351702080139310721416303742545953407954087511692015998085906572277468721231419624806791501700725774719523999551420555778028967297024, 1, 28)) (.leaf (7076179546540390035452914839353004170469227288280825803205386812960545368564890175288790081558761374226816641263817879886652944592357220852653747190947446122766967767040, 2, 30)))) (.node 2 (.node 1 (.leaf (104943931345037871710028804402112535931351446242779070766484038836396536565222728562740249001265855242764893807628881207827448363470099442050729936417952254616766935863737260603216305222865387520, 1, 16)) (.leaf (8911016831293350036408538292383381493932086928219843614412485386522021891649756710735254386351715140286781833689232602691923652367041294235587109179468428986192596581328855116761985265434624, 2, 26))) (.node 1 (.leaf (1058486223288349290724751812522467587375229013681665903894372664152631848377724701127976457028402131223825093332941805478157459122766633094479979176773977868695901392316566726189455657769386377216, 0, 25)) (.leaf (9205237827709653637671732295040225164713094654940554254121991580370281353379571050713479501806628668706684231448732255504917704001369620389644429054128705408248876507349569874109278996454277772912689190486933504, 1, 21))))))

/-- The sets that can be reached. -/
def nvpPairs1 : Tree (PairNode Nat) :=
  .node 16 (.node 8 (.node 4 (.node 2 (.node 1 (.leaf (9862755132605894691139778822773566895446944729142017053145010840816226582134061268998740269310258960581208451887878968187998991350641686279876272289079749307737301490610805971631680501811643003749569889315061776, 0, 24)) (.leaf (1097528656536901369893479937024684405780895361636627539618654811412231446349102453982285214057916132163811151117748512297128993458437844021058854476310705328873919199007735808, 0, 22))) (.node 1 (.leaf (5796806284525887517043027836397981016448390994559652497985852877177278765928358031596576834812937317766608192523319607203146092210059035322493949698824147863770699994759168, 1, 23)) (.leaf (25193917249441899743739015643041498409670303862490733145364231206626290679908361423249069504247705901889911137312177103274826361158498405949186315071936097645756416, 2, 15)))) (.node 2 (.node 1 (.leaf (12509373936677759241191937163896349222954886269489973552199395830410727615750500680696611484139169063017432065736511283388620489011851975302584012748430700612036866947634933689299821920256, 1, 28)) (.leaf (9862755143628382140119343191210862511325798771606490150098681599245279444934067401060249067514910160610699740943287414758003140227395552498470821297781823609327111846540359705404301048490353405552989380045438992, 0, 34))) (.node 1 (.leaf (49794186826571915502148894364293933812149354786909242799947887956287834187875073649372464342145520115011083895466658860586156988704807837878840654228637529459926839441035995912339456, 1, 33)) (.leaf (6604434243437697366422720516729470559104612135728770749658361025429842343993897496936204076121510615945028865179563354560876081619533406129143497378217616381249169915904, 2, 30))))) (.node 4 (.node 2 (.node 1 (.leaf (28106386181749889469793575301010383473211046604397912619381168320186408606192074160489517751096793253263588464511902462925661899398903457970279965693670624477018671563813364633404756908758635896635392, 1, 35)) (.leaf (89110168312933500364085382923833814939320869282198436144124853865220218916497567107352543863517151402867818336892326026919236523670412942355871091794684289861925965813288551167619852654346240, 1, 32))) (.node 1 (.leaf (1167984798111281975972139931059274579172666497855631342228273284582214453382316911589491262927892006867669068505315095700035816963052836518046873574371285924078236019107935697864226932711047036928, 2, 26)) (.leaf (9862755132605894691139778822773554752513674772399407108036510589964376241929855137381301174564165062300542519065756586984109222393290024846441417964048081318037526178373525959914844151028191666881822223864168464, 0, 24)))) (.node 2 (.node 1 (.leaf (370995602209656801090753781529470785052697023651817759871094584139345841019414914022180917428027988337062924321492454861001349901443778260639612780724745463281324799664586752, 1, 31)) (.leaf (1105257731582935886582870640806548380469493216296040409615969281915134484703673598024413983171000048587499962041112938440066521581384589401488846409242470859358946799000748032, 0, 22))) (.node 1 (.leaf (9862755143628382140119217009820185017599697283515435893231824162467487269414136755515225074040858479485401243688793176604161188726820851450874109488251235622250533708763892623157914532230168573131902418340020240, 0, 39)) (.leaf (37710797489990464006960762665225272540401111358619266547160533812228653091617389110458079661784873900435060870166749643750582892779107802553575322135821488977651259736677927570945081344, 0, 37)))))) (.node 8 (.node 4 (.node 2 (.node 1 (.leaf (199176747306287662008595577457175735248597419147636971199791551825151336751500294597489857368582080460044335581866635442344627954819231351515362616914550117839707357764143983649357824, 1, 38)) (.leaf (27508377965116913098095839656308034888674641357495829372160292398480314806060327901755698224477712545747341901437181133927243561113820405673039966423592526083890614722030101556098272719210579813728256, 1, 35))) (.node 1 (.leaf (9862755365274147552965161711954957494295220005856221134012430845838178585391317251093165191367556743235658962461059077971673625802139570655805429016079860023329628992004092879097813727140718797139810768981590032, 0, 40)) (.leaf (9862755187718331940490389654083546772635766220174757212787133211103388726997837559637130964016611811078795125573117112473405307068370215101188031521477843863694833481300694364641905208582312668428375713575338000, 0, 36)))) (.node 2 (.node 1 (.leaf (11679847981112819759721399310592745791726664978556313422282732845822144533823169115894912629278920068676690685053150957000358169630528365180468735743712859240782360191079356978642269327110470369280, 1, 32)) (.leaf (9862755132605894691139778822773554750534910793816976546229218692060607097044295003092553129157952574955756840321253538073486067426415484187985683912077419567546927827085665673267690696544157026300928069403148304, 0, 24))) (.node 1 (.leaf (1592189459483110438014484979063978785851158059839051219446780923598025901041655672678526437295286783279895050213071785445130793327029548368578338183943699279915685598560518144, 0, 22)) (.leaf (9862755143628382140118799781810009221208942052112525901099877344359172893897556793864675339155971994906612343045979851317589951703883409270592764047526437025392083770217421109566654773394526170796415466139025424, 0, 39))))) (.node 4 (.node 2 (.node 1 (.leaf (12747311827602410368550116957259247055910234825448766156786659316809685552096018854239350871589253149442837477239464668310056189108430806496983207482531207541741270896905214953558900736, 1, 42)) (.leaf (37976366486398847556305556768501506854065907917482782508760255881328854873952722836588066138276316674381786650942571824340375730052200111022262472291707555801437536213696786215810891776, 0, 37))) (.node 1 (.leaf (9862755364996671740447460675487208155153330262631329099449864219127692157719689727832034927315064482884405514173520672705002929146873461691526892750160500362013391337592674504510379659270510133189512746512678928, 0, 43)) (.leaf (9862755187718331939456711701653518168412375778258284959491011127429886867725989254800576424585240032633505616756318156200138614360419233188924887846901053732366728816482356602243564005148165474883985422784921616, 0, 41)))) (.node 2 (.node 1 (.leaf (9862755187718915928433936879424857824397026711272652799070017562664581056433885973602811176647528201342631878400693376864267047771603931663707731756216220182688464534528518989555160885766817223513738604376490000, 0, 36)) (.leaf (9862755143628382140118799713820196625093872426886723054520201885020241378605228187435829992174625064212188864298660830813061027999165940335492311488844582031369048466483744481547828089986087484015182714165526544, 0, 39))) (.node 1 (.leaf (54707213260127011165027585274904268614948091125884288089542746234641567161078747582777214157237211433025510839819369201497324478257015544549552932112529765699972954265884880842356948992, 0, 37)) (.leaf (9862755187718780442197355970715645056165023835421468769756266309428882576732874436726218827885783820356132242927896727252320431220502727508940017627180126745353837465361325914176944365225864973189544122920206352, 0, 41))))))

/-- The sets that can be reached. -/
def nvpPairs : Tree (PairNode Nat) := (.node 32 nvpPairs0 nvpPairs1)

/-- The successors. -/
def nvpSucc0 : List (List Nat) := [
  [1, 2, 2, 1, 1, 1, 1, 1, 3, 1, 3, 3, 1, 1, 3, 1, 3, 1],
  [1, 1, 1, 1, 1, 1, 1, 1, 1, 1, 1, 1, 1, 1, 1, 1, 1, 1],
  [1, 2, 2, 1, 1, 1, 1, 1, 3, 1, 3, 3, 1, 1, 3, 1, 3, 1],
  [1, 4, 5, 1, 1, 1, 6, 1, 3, 7, 3, 3, 8, 9, 3, 1, 3, 10],
  [1, 4, 5, 1, 1, 1, 6, 1, 11, 1, 11, 11, 8, 9, 11, 1, 11, 10],
  [1, 5, 5, 1, 1, 1, 1, 1, 1, 1, 1, 1, 8, 9, 1, 1, 1, 10],
  [1, 12, 12, 1, 1, 1, 1, 1, 1, 1, 13, 14, 1, 15, 16, 1, 1, 1],
  [1, 1, 1, 1, 1, 1, 1, 17, 17, 1, 17, 17, 1, 1, 17, 17, 17, 1],
  [1, 18, 18, 1, 1, 1, 1, 1, 3, 1, 3, 3, 1, 1, 3, 1, 3, 10],
  [1, 19, 19, 20, 21, 20, 20, 20, 20, 20, 20, 20, 1, 20, 20, 1, 20, 22],
  [1, 1, 1, 1, 1, 1, 1, 1, 1, 1, 1, 1, 1, 1, 1, 1, 1, 1],
  [1, 4, 5, 1, 1, 1, 6, 1, 11, 1, 11, 11, 8, 9, 11, 1, 11, 10],
  [1, 12, 12, 1, 1, 1, 1, 1, 1, 1, 1, 1, 1, 15, 1, 1, 1, 1],
  [1, 23, 23, 1, 1, 1, 24, 1, 1, 1, 25, 25, 1, 26, 1, 1, 1, 1],
  [1, 23, 23, 1, 1, 1, 27, 1, 1, 1, 25, 25, 1, 26, 1, 1, 1, 1],
  [1, 28, 28, 1, 1, 29, 1, 30, 30, 1, 30, 30, 1, 1, 30, 30, 30, 1]]

/-- The successors. -/
def nvpSucc1 : List (List Nat) := [
  [1, 1, 1, 1, 1, 1, 27, 1, 1, 1, 1, 1, 1, 1, 1, 1, 1, 1],
  [1, 31, 31, 1, 1, 1, 1, 17, 17, 1, 17, 17, 8, 1, 17, 17, 17, 10],
  [1, 18, 18, 1, 1, 1, 1, 1, 3, 1, 3, 3, 1, 1, 3, 1, 3, 10],
  [1, 19, 19, 20, 21, 20, 20, 20, 20, 20, 20, 20, 1, 20, 20, 1, 20, 22],
  [1, 32, 32, 20, 1, 20, 20, 20, 20, 20, 20, 20, 8, 20, 20, 1, 20, 10],
  [1, 33, 1, 33, 1, 33, 33, 33, 33, 33, 33, 33, 33, 33, 33, 34, 33, 1],
  [1, 31, 31, 1, 1, 1, 1, 1, 1, 1, 1, 1, 8, 1, 1, 1, 1, 10],
  [1, 23, 23, 1, 1, 1, 1, 1, 1, 1, 1, 1, 1, 26, 1, 1, 1, 1],
  [1, 35, 35, 1, 1, 1, 1, 1, 1, 1, 1, 1, 1, 15, 1, 1, 1, 1],
  [1, 23, 23, 1, 1, 1, 1, 1, 1, 1, 25, 25, 1, 26, 1, 1, 1, 1],
  [1, 36, 36, 37, 38, 37, 37, 37, 37, 37, 37, 37, 1, 37, 37, 1, 37, 1],
  [1, 39, 39, 1, 1, 1, 1, 1, 1, 1, 1, 1, 1, 40, 1, 1, 1, 1],
  [1, 28, 28, 1, 1, 29, 1, 30, 30, 1, 30, 30, 1, 1, 30, 30, 30, 1],
  [1, 1, 1, 1, 1, 41, 1, 1, 1, 1, 1, 1, 1, 1, 1, 1, 1, 1],
  [1, 1, 1, 1, 1, 42, 1, 30, 30, 1, 30, 30, 1, 1, 30, 30, 30, 1],
  [1, 31, 31, 1, 1, 1, 1, 1, 1, 1, 1, 1, 8, 1, 1, 1, 1, 10]]

/-- The successors. -/
def nvpSucc2 : List (List Nat) := [
  [1, 32, 32, 1, 1, 1, 1, 1, 1, 1, 1, 1, 8, 1, 1, 1, 1, 10],
  [1, 33, 1, 33, 43, 33, 33, 33, 33, 33, 33, 33, 33, 33, 33, 44, 33, 1],
  [1, 1, 1, 1, 45, 1, 1, 1, 1, 1, 1, 1, 1, 1, 1, 45, 1, 1],
  [1, 35, 35, 1, 1, 1, 1, 1, 1, 1, 1, 1, 1, 15, 1, 1, 1, 1],
  [1, 36, 36, 37, 38, 37, 37, 37, 37, 37, 37, 37, 1, 37, 37, 1, 37, 1],
  [1, 46, 46, 37, 1, 37, 37, 37, 37, 37, 37, 37, 8, 37, 37, 1, 37, 10],
  [1, 47, 1, 47, 1, 47, 47, 47, 47, 47, 47, 47, 47, 47, 47, 48, 47, 1],
  [1, 39, 39, 1, 1, 1, 1, 1, 1, 1, 1, 1, 1, 40, 1, 1, 1, 1],
  [1, 49, 49, 50, 1, 50, 50, 50, 50, 50, 50, 50, 1, 50, 50, 1, 50, 1],
  [1, 1, 1, 51, 1, 51, 51, 51, 51, 51, 51, 51, 1, 51, 51, 1, 51, 1],
  [1, 1, 1, 1, 1, 52, 1, 1, 1, 1, 1, 1, 1, 1, 1, 1, 1, 1],
  [1, 53, 53, 1, 1, 1, 1, 1, 1, 1, 1, 1, 8, 1, 1, 1, 1, 10],
  [1, 1, 1, 1, 54, 1, 1, 1, 1, 1, 1, 1, 1, 1, 1, 54, 1, 1],
  [1, 33, 1, 33, 43, 33, 33, 33, 33, 33, 33, 33, 33, 33, 33, 44, 33, 1],
  [1, 46, 46, 1, 1, 1, 1, 1, 1, 1, 1, 1, 8, 1, 1, 1, 1, 10],
  [1, 47, 1, 47, 55, 47, 47, 47, 47, 47, 47, 47, 47, 47, 47, 56, 47, 1]]

/-- The successors. -/
def nvpSucc3 : List (List Nat) := [
  [1, 1, 1, 1, 57, 1, 1, 1, 1, 1, 1, 1, 1, 1, 1, 57, 1, 1],
  [1, 49, 49, 50, 1, 50, 50, 50, 50, 50, 50, 50, 1, 50, 50, 1, 50, 1],
  [1, 58, 58, 50, 1, 50, 50, 50, 50, 50, 50, 50, 8, 50, 50, 1, 50, 10],
  [1, 59, 59, 51, 1, 51, 51, 51, 51, 51, 51, 51, 8, 51, 51, 1, 51, 10],
  [1, 1, 1, 60, 1, 60, 60, 60, 60, 60, 60, 60, 1, 60, 60, 1, 60, 1],
  [1, 53, 53, 1, 1, 1, 1, 1, 1, 1, 1, 1, 8, 1, 1, 1, 1, 10],
  [1, 33, 1, 33, 43, 33, 33, 33, 33, 33, 33, 33, 33, 33, 33, 44, 33, 1],
  [1, 61, 61, 1, 1, 1, 1, 1, 1, 1, 1, 1, 8, 1, 1, 1, 1, 10],
  [1, 1, 1, 1, 62, 1, 1, 1, 1, 1, 1, 1, 1, 1, 1, 62, 1, 1],
  [1, 47, 1, 47, 55, 47, 47, 47, 47, 47, 47, 47, 47, 47, 47, 56, 47, 1],
  [1, 58, 58, 1, 1, 1, 1, 1, 1, 1, 1, 1, 8, 1, 1, 1, 1, 10],
  [1, 59, 59, 1, 1, 1, 1, 1, 1, 1, 1, 1, 8, 1, 1, 1, 1, 10],
  [1, 63, 63, 60, 1, 60, 60, 60, 60, 60, 60, 60, 8, 60, 60, 1, 60, 10],
  [1, 61, 61, 1, 1, 1, 1, 1, 1, 1, 1, 1, 8, 1, 1, 1, 1, 10],
  [1, 47, 1, 47, 55, 47, 47, 47, 47, 47, 47, 47, 47, 47, 47, 56, 47, 1],
  [1, 63, 63, 1, 1, 1, 1, 1, 1, 1, 1, 1, 8, 1, 1, 1, 1, 10]]


/-- The states of the scanner in Model/Nvp.lean. -/
def nvpModel : List (List NvpState) := [
  [.main, .comp, .nv, .nameIn],
  [],
  [.name1, .nameOut, .eqN, .cname1, .major, .compOut],
  [.out2, .out],
  [.name2, .nameOut, .eqN, .cname2, .compOut],
  [.eqN, .compOut],
  [.main, .comp, .nv, .nameIn, .last, .in2],
  [.rhs (.normal)],
  [.star, .digIn, .eqS],
  [.bar],
  [.name1, .nameOut, .eqN, .cname1, .compOut],
  [.main, .comp, .nv, .nameIn, .last],
  [.vOut (.normal), .compOut],
  [.qv0 (.normal)],
  [.v1 (.normal), .vOws (.normal), .vOut (.normal), .compOut],
  [.eqS],
  [.rhs (.charset)],
  [.digIn, .digOut, .star0],
  [.digIn, .digOut, .star1],
  [.star1],
  [.minor, .mmOut, .compOut],
  [.compOut],
  [.qv1 (.normal), .qv2 (.normal)],
  [.esc0 (.normal)],
  [.vOws (.normal), .vOut (.normal), .compOut],
  [.cs],
  [.sq1],
  [.digOut],
  [.rhs (.cont)],
  [.digIn, .digOut],
  [.eqSC],
  [.esc1 (.normal)],
  [.vIn],
  [.qv0 (.cont)],
  [.v1 (.cont), .vOws (.cont), .vOut (.cont), .compOut],
  [.rhs (.charsetCont)],
  [.v1 (.charset), .vOws (.charset), .vOut (.charset), .compOut],
  [.qv1 (.cont), .qv2 (.cont)],
  [.esc0 (.cont)],
  [.vOws (.cont), .vOut (.cont), .compOut],
  [.v1 (.charsetCont), .vOws (.charsetCont), .vOut (.charsetCont), .compOut],
  [.vOws (.charset), .vOut (.charset), .compOut],
  [.esc1 (.cont)],
  [.vOws (.charsetCont), .vOut (.charsetCont), .compOut]]

/-- The successors of those, for the tokens of `nvpToks`. -/
def nvpModelNext : List (List Nat) := [
  [1, 0, 0, 1, 1, 1, 1, 1, 1, 1, 2, 2, 2, 2, 1, 1, 1],
  [1, 1, 1, 1, 1, 1, 1, 1, 1, 1, 1, 1, 1, 1, 1, 1, 1],
  [3, 4, 5, 1, 1, 6, 7, 8, 9, 1, 2, 2, 2, 2, 1, 1, 1],
  [1, 1, 1, 1, 1, 1, 1, 1, 1, 1, 1, 1, 1, 1, 1, 1, 1],
  [3, 4, 5, 1, 1, 6, 7, 8, 1, 1, 10, 10, 10, 10, 1, 1, 1],
  [3, 5, 5, 1, 1, 6, 7, 1, 1, 1, 1, 1, 1, 1, 1, 1, 1],
  [3, 11, 11, 1, 1, 1, 1, 1, 1, 1, 2, 2, 2, 2, 1, 1, 1],
  [12, 7, 7, 13, 1, 1, 14, 14, 14, 14, 14, 14, 14, 14, 14, 14, 1],
  [1, 15, 15, 1, 1, 1, 16, 1, 1, 1, 17, 18, 19, 1, 1, 1, 1],
  [1, 1, 1, 1, 20, 1, 1, 1, 1, 1, 20, 20, 20, 20, 20, 1, 1],
  [3, 4, 5, 1, 1, 6, 7, 8, 1, 1, 10, 10, 10, 10, 1, 1, 1],
  [3, 11, 11, 1, 1, 1, 1, 1, 1, 1, 2, 2, 2, 2, 1, 1, 1],
  [3, 21, 21, 1, 1, 6, 1, 1, 1, 1, 1, 1, 1, 1, 1, 1, 1],
  [1, 22, 1, 1, 23, 22, 22, 22, 22, 22, 22, 22, 22, 22, 22, 22, 1],
  [3, 24, 24, 1, 1, 6, 14, 14, 14, 14, 14, 14, 14, 14, 14, 14, 1],
  [1, 15, 15, 1, 1, 1, 16, 1, 1, 1, 1, 1, 1, 1, 1, 1, 1],
  [1, 16, 16, 1, 25, 1, 1, 1, 1, 26, 25, 25, 25, 25, 25, 1, 1],
  [1, 27, 27, 1, 1, 1, 28, 15, 1, 1, 29, 29, 1, 1, 1, 1, 1],
  [1, 27, 27, 1, 1, 1, 28, 30, 1, 1, 29, 29, 1, 1, 1, 1, 1],
  [1, 1, 1, 1, 1, 1, 1, 30, 1, 1, 1, 1, 1, 1, 1, 1, 1],
  [3, 21, 21, 1, 20, 6, 1, 1, 1, 1, 20, 20, 20, 20, 20, 1, 1],
  [3, 21, 21, 1, 1, 6, 1, 1, 1, 1, 1, 1, 1, 1, 1, 1, 1],
  [1, 22, 1, 24, 31, 22, 22, 22, 22, 22, 22, 22, 22, 22, 22, 22, 1],
  [1, 1, 1, 22, 22, 1, 1, 1, 1, 1, 1, 1, 1, 1, 1, 1, 1],
  [3, 24, 24, 1, 1, 6, 1, 1, 1, 1, 1, 1, 1, 1, 1, 1, 1],
  [1, 1, 1, 1, 25, 1, 1, 1, 1, 26, 25, 25, 25, 25, 25, 1, 1],
  [1, 1, 1, 1, 1, 1, 1, 1, 1, 32, 1, 1, 1, 1, 1, 1, 1],
  [1, 27, 27, 1, 1, 1, 28, 1, 1, 1, 1, 1, 1, 1, 1, 1, 1],
  [1, 28, 28, 33, 1, 1, 34, 34, 34, 34, 34, 34, 34, 34, 34, 34, 1],
  [1, 27, 27, 1, 1, 1, 28, 1, 1, 1, 29, 29, 1, 1, 1, 1, 1],
  [1, 30, 30, 1, 1, 1, 35, 1, 1, 1, 1, 1, 1, 1, 1, 1, 1],
  [1, 1, 1, 22, 22, 1, 1, 1, 1, 1, 1, 1, 1, 1, 1, 1, 1],
  [1, 1, 1, 1, 1, 1, 36, 36, 36, 36, 36, 36, 36, 36, 36, 36, 1],
  [1, 37, 1, 1, 38, 37, 37, 37, 37, 37, 37, 37, 37, 37, 37, 37, 1],
  [3, 39, 39, 1, 1, 6, 34, 34, 34, 34, 34, 34, 34, 34, 34, 34, 1],
  [1, 35, 35, 1, 1, 1, 40, 40, 40, 40, 40, 40, 40, 40, 40, 40, 1],
  [3, 41, 41, 1, 1, 6, 36, 36, 36, 36, 36, 36, 36, 36, 36, 36, 1],
  [1, 37, 1, 39, 42, 37, 37, 37, 37, 37, 37, 37, 37, 37, 37, 37, 1],
  [1, 1, 1, 37, 37, 1, 1, 1, 1, 1, 1, 1, 1, 1, 1, 1, 1],
  [3, 39, 39, 1, 1, 6, 1, 1, 1, 1, 1, 1, 1, 1, 1, 1, 1],
  [3, 43, 43, 1, 1, 6, 40, 40, 40, 40, 40, 40, 40, 40, 40, 40, 1],
  [3, 41, 41, 1, 1, 6, 1, 1, 1, 1, 1, 1, 1, 1, 1, 1, 1],
  [1, 1, 1, 37, 37, 1, 1, 1, 1, 1, 1, 1, 1, 1, 1, 1, 1],
  [3, 43, 43, 1, 1, 6, 1, 1, 1, 1, 1, 1, 1, 1, 1, 1, 1]]

/-- The attributes of those: three copiers, eight actions, and whether they are states at all. -/
def nvpMarks : List Nat := [2048, 0, 2177, 3072, 2305, 2048, 3072, 2048, 2048, 2048, 2177, 2048, 2056, 2048, 2060, 2048, 2048, 2048, 2048, 2048, 2562, 2048, 2052, 2048, 2056, 2050, 2048, 2048, 2048, 2048, 2048, 2048, 2048, 2048, 2068, 2048, 2084, 2052, 2048, 2064, 2116, 2080, 2048, 2112]

/-- The tokens of the groups. -/
def nvpTokOf : List Nat := [16, 1, 2, 15, 3, 9, 7, 14, 13, 8, 10, 11, 5, 6, 12, 4, 13, 0]

/-- The states with the attributes. -/
def nvpEnds : List (Nat × Nat) := [(22574054295509033949455694649658755297655028913400702988285165035074590639811166775879510808040062747035246748465559060786193730912511048349660910149521089847380466848390167781687281085223219261289938362368, 0), (41094811730846960021519761280494998234594794528200838943954783463060027395908516315727093355150346786684858006254985915056937507351467957122296250057918375148076077229291599354135486789523920400093397362147328, 1), (76582427527747884923702710543122393215652219002011656026354295255266152019353601832249002593325741344223268396511626488785514835498583862020138348924248973704269670576627792514260574653812575649660928, 2), (2449441655328671218473925200700819802261115891310932980616707775308160205339632675773724781031754577986545922354058563577521513615700182209495037010239891018252520823944245564647359240388837715587629056, 3), (9797766621314684873895700802803279209044463565243731922466831101232640821358530703094899124127018311946183689416234254310086054462800728837980148040959564073010083295776982258589436961555350862350516224, 4), (39191066485258739495582803211213116836177854260974927689867324404930563285434122812379596496508073247784734757664937017240344217851202915351920592163838256292040333183107929034357747846221403449402064896, 5), (156764265941034957982331212844852467344711417043899710759469297619722253141736491249518385986032292991138939030659748068961376871404811661407682368655353025168161332732431716137430991384885613797608259584, 6), (5016456510113118655434598811035278955034450869644600664063370007794353475513592616862113512897791721563388166325679791285820829091669121855480202255449131077195659299642259507041618018938493169175541858304, 7), (40131652080904949243476790488282231640275606957156805312506960062354827804108740934896908103182333772507105330605438330286566632733352974843841618043593048617565274397138076056332944151507945353404334866432, 8), (328758493846773344202561867680008041596896237676448366218642556441795762620698966096909982207379595310953008266026151982318489428620343585344443894790310907437459875262484638361045678444795634746881756803104768, 9), (105202718030967470144819797657602573311006796056463477189965618061374643085941616442273330725551769024539659377123564354260388645003676077262556295413037616999104473422568891963833275157686454345425865034715627520, 10)]

end Mairix
