import Mathlib.Data.Nat.Notation
import Mathlib.Data.Int.Notation

/-!
# Constants of the bn256 pairing

Transcribed from `src/circuit/bn256_constants.rs`; every inner list is one little-endian byte string. Generated from that
file by a script, so the numbers are those of the source.
-/

namespace Verif

/-- `BN_X`, `src/circuit/bn256_constants.rs:6`. -/
def BN_X : ℕ :=
  4965661367192848881

/-- `SIX_U_PLUS_2_NAF`, `src/circuit/bn256_constants.rs:8-12`. -/
def SIX_U_PLUS_2_NAF : List ℤ :=
  [0, 0, 0, 1, 0, 1, 0, -1, 0, 0, 1, -1, 0, 0, 1, 0, 0, 1, 1, 0, -1, 0, 0, 1, 0, -1, 0, 0, 0, 0, 1, 1, 1,
   0, 0, -1, 0, 0, 1, 0, 0, 0, 0, 0, -1, 0, 0, 1, 1, 0, 0, -1, 0, 0, 0, 1, 1, 0, -1, 0, 0, 1, 0, 1, 1]

/-- `XI_TO_Q_MINUS_1_OVER_2`, `src/circuit/bn256_constants.rs:14-23`. -/
def XI_TO_Q_MINUS_1_OVER_2 : List (List ℕ) :=
  [[90, 19, 160, 113, 70, 1, 84, 220, 152, 89, 201, 169, 237, 224, 170, 219, 185, 249, 226, 182, 152, 198,
    94, 220, 220, 245, 154, 72, 5, 243, 60, 6],
   [227, 176, 35, 38, 99, 127, 211, 130, 210, 91, 162, 143, 201, 125, 128, 33, 43, 111, 121, 236, 167, 181,
    4, 7, 154, 4, 65, 172, 188, 60, 192, 7]]

/-- `FROBENIUS_COEFF_FQ2_C1`, `src/circuit/bn256_constants.rs:25-34`. -/
def FROBENIUS_COEFF_FQ2_C1 : List (List ℕ) :=
  [[1, 0, 0, 0, 0, 0, 0, 0, 0, 0, 0, 0, 0, 0, 0, 0, 0, 0, 0, 0, 0, 0, 0, 0, 0, 0, 0, 0, 0, 0, 0, 0],
   [70, 253, 124, 216, 22, 140, 32, 60, 141, 202, 113, 104, 145, 106, 129, 151, 93, 88, 129, 129, 182, 69,
    80, 184, 41, 160, 49, 225, 114, 78, 100, 48]]

/-- `FROBENIUS_COEFF_FQ6_C1`, `src/circuit/bn256_constants.rs:36-97`. -/
def FROBENIUS_COEFF_FQ6_C1 : List (List (List ℕ)) :=
  [[[1, 0, 0, 0, 0, 0, 0, 0, 0, 0, 0, 0, 0, 0, 0, 0, 0, 0, 0, 0, 0, 0, 0, 0, 0, 0, 0, 0, 0, 0, 0, 0],
    [0, 0, 0, 0, 0, 0, 0, 0, 0, 0, 0, 0, 0, 0, 0, 0, 0, 0, 0, 0, 0, 0, 0, 0, 0, 0, 0, 0, 0, 0, 0, 0]],
   [[61, 85, 111, 23, 87, 149, 227, 153, 12, 51, 195, 194, 16, 195, 140, 183, 67, 177, 89, 245, 60, 236, 11,
     76, 247, 17, 121, 79, 152, 71, 179, 47],
    [162, 203, 15, 100, 28, 213, 101, 22, 206, 157, 124, 11, 29, 42, 174, 50, 148, 7, 90, 215, 139, 204, 164,
     75, 32, 174, 235, 97, 80, 229, 201, 22]],
   [[72, 253, 124, 96, 229, 68, 189, 228, 61, 110, 150, 187, 159, 6, 143, 194, 176, 204, 172, 224, 231, 217,
     109, 94, 41, 160, 49, 225, 114, 78, 100, 48],
    [0, 0, 0, 0, 0, 0, 0, 0, 0, 0, 0, 0, 0, 0, 0, 0, 0, 0, 0, 0, 0, 0, 0, 0, 0, 0, 0, 0, 0, 0, 0, 0]],
   [[109, 251, 220, 123, 232, 110, 116, 123, 211, 66, 105, 93, 61, 253, 95, 128, 172, 37, 159, 149, 119, 28,
     255, 186, 10, 239, 85, 183, 120, 224, 86, 8],
    [222, 134, 165, 170, 43, 171, 12, 56, 49, 38, 255, 152, 191, 49, 223, 15, 79, 9, 38, 236, 109, 14, 243,
     169, 111, 118, 209, 179, 65, 222, 241, 4]],
   [[254, 255, 255, 119, 49, 71, 99, 87, 79, 92, 219, 172, 241, 99, 242, 212, 172, 139, 212, 160, 206, 107,
     226, 89, 0, 0, 0, 0, 0, 0, 0, 0],
    [0, 0, 0, 0, 0, 0, 0, 0, 0, 0, 0, 0, 0, 0, 0, 0, 0, 0, 0, 0, 0, 0, 0, 0, 0, 0, 0, 0, 0, 0, 0, 0]],
   [[228, 169, 173, 29, 238, 19, 233, 98, 58, 31, 183, 176, 212, 20, 22, 247, 202, 217, 9, 120, 184, 130,
     149, 105, 81, 63, 148, 187, 212, 116, 190, 40],
    [199, 170, 199, 201, 206, 11, 174, 237, 141, 6, 246, 195, 180, 14, 244, 84, 122, 71, 1, 190, 188, 106,
     184, 194, 153, 123, 116, 203, 224, 138, 168, 20]]]

/-- `FROBENIUS_COEFF_FQ6_C2`, `src/circuit/bn256_constants.rs:99-160`. -/
def FROBENIUS_COEFF_FQ6_C2 : List (List (List ℕ)) :=
  [[[1, 0, 0, 0, 0, 0, 0, 0, 0, 0, 0, 0, 0, 0, 0, 0, 0, 0, 0, 0, 0, 0, 0, 0, 0, 0, 0, 0, 0, 0, 0, 0],
    [0, 0, 0, 0, 0, 0, 0, 0, 0, 0, 0, 0, 0, 0, 0, 0, 0, 0, 0, 0, 0, 0, 0, 0, 0, 0, 0, 0, 0, 0, 0, 0]],
   [[98, 167, 30, 146, 85, 31, 138, 132, 114, 236, 148, 190, 247, 101, 51, 211, 132, 30, 24, 90, 183, 192,
     243, 128, 1, 168, 238, 100, 94, 79, 181, 5],
    [38, 129, 43, 205, 17, 71, 59, 193, 99, 199, 222, 27, 234, 210, 133, 54, 146, 28, 11, 59, 176, 128, 58,
     159, 238, 138, 253, 231, 219, 94, 20, 44]],
   [[254, 255, 255, 119, 49, 71, 99, 87, 79, 92, 219, 172, 241, 99, 242, 212, 172, 139, 212, 160, 206, 107,
     226, 89, 0, 0, 0, 0, 0, 0, 0, 0],
    [0, 0, 0, 0, 0, 0, 0, 0, 0, 0, 0, 0, 0, 0, 0, 0, 0, 0, 0, 0, 0, 0, 0, 0, 0, 0, 0, 0, 0, 0, 0, 0]],
   [[102, 240, 203, 60, 188, 146, 26, 14, 203, 107, 176, 117, 69, 9, 51, 230, 78, 68, 178, 181, 247, 224,
     190, 25, 171, 141, 192, 17, 102, 140, 197, 11],
    [159, 35, 12, 115, 157, 237, 227, 95, 229, 150, 127, 115, 8, 158, 74, 164, 4, 29, 210, 12, 239, 246, 176,
     254, 18, 10, 145, 225, 153, 233, 213, 35]],
   [[72, 253, 124, 96, 229, 68, 189, 228, 61, 110, 150, 187, 159, 6, 143, 194, 176, 204, 172, 224, 231, 217,
     109, 94, 41, 160, 49, 225, 114, 78, 100, 48],
    [0, 0, 0, 0, 0, 0, 0, 0, 0, 0, 0, 0, 0, 0, 0, 0, 0, 0, 0, 0, 0, 0, 0, 0, 0, 0, 0, 0, 0, 0, 0, 0]],
   [[127, 101, 146, 9, 5, 218, 123, 169, 79, 114, 44, 52, 84, 251, 26, 222, 137, 245, 182, 113, 7, 164, 157,
     29, 125, 106, 130, 106, 174, 114, 233, 30],
    [201, 85, 194, 112, 126, 227, 33, 87, 209, 54, 133, 65, 48, 100, 50, 84, 36, 119, 37, 187, 205, 19, 181,
     210, 81, 171, 212, 248, 111, 84, 222, 16]]]

/-- `FROBENIUS_COEFF_FQ12_C1`, `src/circuit/bn256_constants.rs:162-283`. -/
def FROBENIUS_COEFF_FQ12_C1 : List (List (List ℕ)) :=
  [[[1, 0, 0, 0, 0, 0, 0, 0, 0, 0, 0, 0, 0, 0, 0, 0, 0, 0, 0, 0, 0, 0, 0, 0, 0, 0, 0, 0, 0, 0, 0, 0],
    [0, 0, 0, 0, 0, 0, 0, 0, 0, 0, 0, 0, 0, 0, 0, 0, 0, 0, 0, 0, 0, 0, 0, 0, 0, 0, 0, 0, 0, 0, 0, 0]],
   [[112, 228, 201, 220, 218, 53, 11, 214, 118, 33, 47, 41, 8, 30, 82, 92, 96, 139, 230, 118, 221, 159, 185,
     232, 223, 167, 101, 40, 28, 183, 132, 18],
    [172, 98, 243, 128, 95, 240, 92, 202, 229, 199, 238, 142, 119, 146, 121, 116, 142, 11, 21, 18, 254, 124,
     50, 166, 230, 231, 250, 180, 243, 150, 105, 36]],
   [[73, 253, 124, 96, 229, 68, 189, 228, 61, 110, 150, 187, 159, 6, 143, 194, 176, 204, 172, 224, 231, 217,
     109, 94, 41, 160, 49, 225, 114, 78, 100, 48],
    [0, 0, 0, 0, 0, 0, 0, 0, 0, 0, 0, 0, 0, 0, 0, 0, 0, 0, 0, 0, 0, 0, 0, 0, 0, 0, 0, 0, 0, 0, 0, 0]],
   [[127, 166, 212, 30, 57, 125, 111, 232, 74, 210, 85, 190, 141, 179, 76, 137, 144, 170, 172, 208, 140, 96,
     233, 239, 187, 228, 130, 204, 207, 129, 220, 25],
    [1, 193, 192, 244, 43, 170, 148, 118, 236, 57, 212, 151, 227, 165, 3, 127, 157, 19, 118, 53, 227, 238,
     203, 6, 115, 125, 231, 11, 182, 248, 171, 0]],
   [[72, 253, 124, 96, 229, 68, 189, 228, 61, 110, 150, 187, 159, 6, 143, 194, 176, 204, 172, 224, 231, 217,
     109, 94, 41, 160, 49, 225, 114, 78, 100, 48],
    [0, 0, 0, 0, 0, 0, 0, 0, 0, 0, 0, 0, 0, 0, 0, 0, 0, 0, 0, 0, 0, 0, 0, 0, 0, 0, 0, 0, 0, 0, 0, 0]],
   [[15, 194, 10, 66, 94, 71, 100, 18, 212, 176, 38, 149, 133, 149, 250, 44, 48, 31, 198, 89, 175, 192, 47,
     7, 220, 60, 29, 164, 179, 202, 87, 7],
    [156, 91, 74, 76, 227, 69, 88, 232, 147, 60, 87, 113, 253, 125, 11, 162, 108, 96, 226, 164, 155, 183,
     233, 24, 182, 53, 30, 56, 53, 176, 166, 12]],
   [[70, 253, 124, 216, 22, 140, 32, 60, 141, 202, 113, 104, 145, 106, 129, 151, 93, 88, 129, 129, 182, 69,
     80, 184, 41, 160, 49, 225, 114, 78, 100, 48],
    [0, 0, 0, 0, 0, 0, 0, 0, 0, 0, 0, 0, 0, 0, 0, 0, 0, 0, 0, 0, 0, 0, 0, 0, 0, 0, 0, 0, 0, 0, 0, 0]],
   [[215, 24, 179, 251, 59, 86, 21, 102, 22, 169, 66, 63, 137, 76, 47, 59, 253, 204, 154, 10, 217, 165, 150,
     207, 73, 248, 203, 184, 86, 151, 223, 29],
    [155, 154, 137, 87, 183, 155, 195, 113, 167, 2, 131, 217, 25, 216, 7, 35, 207, 76, 108, 111, 184, 200,
     29, 18, 67, 184, 54, 44, 127, 183, 250, 11]],
   [[254, 255, 255, 119, 49, 71, 99, 87, 79, 92, 219, 172, 241, 99, 242, 212, 172, 139, 212, 160, 206, 107,
     226, 89, 0, 0, 0, 0, 0, 0, 0, 0],
    [0, 0, 0, 0, 0, 0, 0, 0, 0, 0, 0, 0, 0, 0, 0, 0, 0, 0, 0, 0, 0, 0, 0, 0, 0, 0, 0, 0, 0, 0, 0, 0]],
   [[200, 86, 168, 185, 221, 14, 177, 83, 66, 248, 27, 170, 3, 183, 52, 14, 205, 173, 212, 176, 41, 229, 102,
     200, 109, 187, 174, 20, 163, 204, 135, 22],
    [70, 60, 188, 227, 234, 225, 139, 197, 160, 144, 157, 208, 173, 196, 125, 24, 192, 68, 11, 76, 211, 86,
     132, 177, 182, 34, 74, 213, 188, 85, 184, 47]],
   [[255, 255, 255, 119, 49, 71, 99, 87, 79, 92, 219, 172, 241, 99, 242, 212, 172, 139, 212, 160, 206, 107,
     226, 89, 0, 0, 0, 0, 0, 0, 0, 0],
    [0, 0, 0, 0, 0, 0, 0, 0, 0, 0, 0, 0, 0, 0, 0, 0, 0, 0, 0, 0, 0, 0, 0, 0, 0, 0, 0, 0, 0, 0, 0, 0]],
   [[56, 59, 114, 150, 184, 68, 188, 41, 185, 25, 75, 211, 11, 213, 134, 106, 45, 57, 187, 39, 7, 133, 32,
     177, 77, 99, 20, 61, 191, 131, 12, 41],
    [171, 161, 50, 140, 51, 70, 200, 83, 249, 141, 26, 247, 147, 236, 117, 245, 240, 247, 158, 220, 26, 142,
     102, 159, 115, 106, 19, 169, 61, 158, 189, 35]]]

end Verif
