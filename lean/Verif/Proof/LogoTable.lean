import Verif.Proof.LogoCells
/-!
# Which codewords a logo can cover (generated by tools/logotable.py, checked by the kernel)
-/
namespace QR
open Spec

set_option maxRecDepth 1000000

theorem logo_1 : LogoOk 1 := logoOk_of (g := ⟨1, 21, [], [(0, 6), (6, 1), (7, 1), (8, 1), (9, 1), (10, 3), (13, 8)]⟩) (k0 := 4) (cnt := 3) (p0 := 96)
  (cws := [14, 15, 18, 19, 22])
  (bL := [0, 0, 0, 0, 0])
  (bM := [0, 0, 0, 0, 0])
  (bQ := [0, 0, 0, 0, 0])
  (bH := [0, 0, 0, 0, 0])
  (by decide +kernel)

theorem logo_2 : LogoOk 2 := logoOk_of (g := ⟨2, 25, [6, 18], [(0, 4), (4, 2), (6, 1), (7, 1), (8, 1), (9, 5), (14, 2), (16, 1), (17, 4), (21, 4)]⟩) (k0 := 4) (cnt := 4) (p0 := 108)
  (cws := [15, 16, 20, 21, 22, 27, 28, 32, 33, 34])
  (bL := [0, 0, 0, 0, 0, 0, 0, 0, 0, 0])
  (bM := [0, 0, 0, 0, 0, 0, 0, 0, 0, 0])
  (bQ := [0, 0, 0, 0, 0, 0, 0, 0, 0, 0])
  (bH := [0, 0, 0, 0, 0, 0, 0, 0, 0, 0])
  (by decide +kernel)

theorem logo_3 : LogoOk 3 := logoOk_of (g := ⟨3, 29, [6, 22], [(0, 4), (4, 2), (6, 1), (7, 1), (8, 1), (9, 9), (18, 2), (20, 1), (21, 4), (25, 4)]⟩) (k0 := 5) (cnt := 4) (p0 := 191)
  (cws := [26, 27, 28, 33, 34, 35, 40, 41, 42, 47, 48, 49])
  (bL := [0, 0, 0, 0, 0, 0, 0, 0, 0, 0, 0, 0])
  (bM := [0, 0, 0, 0, 0, 0, 0, 0, 0, 0, 0, 0])
  (bQ := [0, 1, 0, 1, 0, 1, 0, 1, 0, 1, 0, 1])
  (bH := [0, 1, 0, 1, 0, 1, 0, 1, 0, 1, 0, 1])
  (by decide +kernel)

theorem logo_4 : LogoOk 4 := logoOk_of (g := ⟨4, 33, [6, 26], [(0, 4), (4, 2), (6, 1), (7, 1), (8, 1), (9, 13), (22, 2), (24, 1), (25, 4), (29, 4)]⟩) (k0 := 6) (cnt := 5) (p0 := 295)
  (cws := [39, 40, 41, 42, 47, 48, 49, 55, 56, 57, 58, 63, 64, 65, 71, 72, 73])
  (bL := [0, 0, 0, 0, 0, 0, 0, 0, 0, 0, 0, 0, 0, 0, 0, 0, 0])
  (bM := [1, 0, 1, 0, 1, 0, 1, 1, 0, 1, 0, 1, 0, 1, 1, 0, 1])
  (bQ := [1, 0, 1, 0, 1, 0, 1, 1, 0, 1, 0, 1, 0, 1, 1, 0, 1])
  (bH := [3, 0, 1, 2, 3, 0, 1, 3, 0, 1, 2, 3, 0, 1, 3, 0, 1])
  (by decide +kernel)

theorem logo_5 : LogoOk 5 := logoOk_of (g := ⟨5, 37, [6, 30], [(0, 4), (4, 2), (6, 1), (7, 1), (8, 1), (9, 17), (26, 2), (28, 1), (29, 4), (33, 4)]⟩) (k0 := 7) (cnt := 5) (p0 := 415)
  (cws := [55, 56, 57, 64, 65, 66, 73, 74, 75, 82, 83, 84, 91, 92, 93])
  (bL := [0, 0, 0, 0, 0, 0, 0, 0, 0, 0, 0, 0, 0, 0, 0])
  (bM := [1, 0, 1, 0, 1, 0, 1, 0, 1, 0, 1, 0, 1, 0, 1])
  (bQ := [3, 0, 1, 2, 3, 0, 3, 0, 1, 0, 1, 2, 1, 2, 3])
  (bH := [1, 2, 3, 2, 3, 0, 3, 0, 1, 0, 1, 2, 1, 2, 3])
  (by decide +kernel)

theorem logo_6 : LogoOk 6 := logoOk_of (g := ⟨6, 41, [6, 34], [(0, 4), (4, 2), (6, 1), (7, 1), (8, 1), (9, 21), (30, 2), (32, 1), (33, 4), (37, 4)]⟩) (k0 := 8) (cnt := 5) (p0 := 551)
  (cws := [72, 73, 74, 75, 82, 83, 84, 92, 93, 94, 95, 102, 103, 104, 112, 113, 114])
  (bL := [0, 1, 0, 1, 0, 1, 0, 0, 1, 0, 1, 0, 1, 0, 0, 1, 0])
  (bM := [0, 1, 2, 3, 2, 3, 0, 0, 1, 2, 3, 2, 3, 0, 0, 1, 2])
  (bQ := [0, 1, 2, 3, 2, 3, 0, 0, 1, 2, 3, 2, 3, 0, 0, 1, 2])
  (bH := [0, 1, 2, 3, 2, 3, 0, 0, 1, 2, 3, 2, 3, 0, 0, 1, 2])
  (by decide +kernel)

theorem logo_7 : LogoOk 7 := logoOk_of (g := ⟨7, 45, [6, 22, 38], [(0, 4), (4, 2), (6, 1), (7, 1), (8, 1), (9, 11), (20, 5), (25, 9), (34, 2), (36, 1), (37, 4), (41, 4)]⟩) (k0 := 8) (cnt := 6) (p0 := 572)
  (cws := [75, 76, 77, 78, 86, 87, 88, 89, 96, 97, 104, 105, 112, 113, 114, 121, 122, 123, 124])
  (bL := [1, 0, 1, 0, 0, 1, 0, 1, 0, 1, 0, 1, 0, 1, 0, 1, 0, 1, 0])
  (bM := [3, 0, 1, 2, 2, 3, 0, 1, 0, 1, 0, 1, 0, 1, 2, 1, 2, 3, 0])
  (bQ := [3, 4, 5, 0, 4, 5, 0, 1, 2, 3, 4, 5, 0, 1, 2, 3, 4, 5, 0])
  (bH := [4, 0, 1, 2, 0, 1, 2, 3, 0, 1, 3, 4, 1, 2, 3, 0, 1, 2, 3])
  (by decide +kernel)

theorem logo_8 : LogoOk 8 := logoOk_of (g := ⟨8, 49, [6, 24, 42], [(0, 4), (4, 2), (6, 1), (7, 1), (8, 1), (9, 13), (22, 5), (27, 11), (38, 2), (40, 1), (41, 4), (45, 4)]⟩) (k0 := 9) (cnt := 6) (p0 := 732)
  (cws := [96, 97, 98, 108, 109, 110, 119, 120, 127, 128, 136, 137, 138, 147, 148, 149, 150])
  (bL := [0, 1, 0, 0, 1, 0, 1, 0, 1, 0, 0, 1, 0, 1, 0, 1, 0])
  (bM := [0, 1, 2, 0, 1, 2, 3, 0, 3, 0, 0, 1, 2, 3, 0, 1, 2])
  (bQ := [0, 1, 2, 4, 5, 0, 3, 4, 5, 0, 2, 3, 4, 1, 2, 3, 4])
  (bH := [4, 5, 0, 4, 5, 0, 3, 4, 5, 0, 2, 3, 4, 1, 2, 3, 4])
  (by decide +kernel)

theorem logo_9 : LogoOk 9 := logoOk_of (g := ⟨9, 53, [6, 26, 46], [(0, 4), (4, 2), (6, 1), (7, 1), (8, 1), (9, 15), (24, 5), (29, 13), (42, 2), (44, 1), (45, 4), (49, 4)]⟩) (k0 := 10) (cnt := 7) (p0 := 908)
  (cws := [118, 119, 120, 121, 131, 132, 133, 134, 143, 144, 145, 152, 153, 154, 162, 163, 164, 165, 174, 175, 176, 177, 187, 188, 189, 190])
  (bL := [0, 1, 0, 1, 1, 0, 1, 0, 1, 0, 1, 0, 1, 0, 0, 1, 0, 1, 0, 1, 0, 1, 1, 0, 1, 0])
  (bM := [3, 4, 0, 1, 1, 2, 3, 4, 3, 4, 0, 2, 3, 4, 2, 3, 4, 0, 4, 0, 1, 2, 0, 1, 2, 3])
  (bQ := [6, 7, 0, 1, 7, 0, 1, 2, 3, 4, 5, 4, 5, 6, 6, 7, 0, 1, 2, 3, 4, 5, 7, 0, 1, 2])
  (bH := [2, 3, 4, 5, 7, 0, 1, 2, 3, 4, 5, 4, 5, 6, 6, 7, 0, 1, 2, 3, 4, 5, 7, 0, 1, 2])
  (by decide +kernel)

theorem logo_10 : LogoOk 10 := logoOk_of (g := ⟨10, 57, [6, 28, 50], [(0, 4), (4, 2), (6, 1), (7, 1), (8, 1), (9, 17), (26, 5), (31, 15), (46, 2), (48, 1), (49, 4), (53, 4)]⟩) (k0 := 11) (cnt := 7) (p0 := 1100)
  (cws := [142, 143, 144, 145, 157, 158, 159, 160, 169, 170, 171, 180, 181, 182, 191, 192, 193, 204, 205, 206, 207, 218, 219, 220, 221])
  (bL := [2, 3, 0, 1, 1, 2, 3, 0, 1, 2, 3, 0, 1, 2, 3, 0, 1, 0, 1, 2, 3, 2, 3, 0, 1])
  (bM := [2, 3, 4, 0, 2, 3, 4, 0, 4, 0, 1, 0, 1, 2, 1, 2, 3, 4, 0, 1, 2, 2, 3, 4, 0])
  (bQ := [6, 7, 0, 1, 3, 4, 5, 6, 7, 0, 1, 2, 3, 4, 5, 6, 7, 2, 3, 4, 5, 0, 1, 2, 3])
  (bH := [4, 5, 6, 7, 3, 4, 5, 6, 7, 0, 1, 2, 3, 4, 5, 6, 7, 2, 3, 4, 5, 0, 1, 2, 3])
  (by decide +kernel)

theorem logo_11 : LogoOk 11 := logoOk_of (g := ⟨11, 61, [6, 30, 54], [(0, 4), (4, 2), (6, 1), (7, 1), (8, 1), (9, 19), (28, 5), (33, 17), (50, 2), (52, 1), (53, 4), (57, 4)]⟩) (k0 := 12) (cnt := 7) (p0 := 1308)
  (cws := [169, 170, 171, 172, 184, 185, 186, 187, 198, 199, 200, 209, 210, 211, 221, 222, 223, 224, 235, 236, 237, 238, 250, 251, 252, 253])
  (bL := [1, 2, 3, 0, 0, 1, 2, 3, 2, 3, 0, 1, 2, 3, 1, 2, 3, 0, 3, 0, 1, 2, 2, 3, 0, 1])
  (bM := [4, 0, 1, 2, 4, 0, 1, 2, 3, 4, 0, 4, 0, 1, 1, 2, 3, 4, 0, 1, 2, 3, 1, 2, 3, 4])
  (bQ := [1, 2, 3, 4, 4, 5, 6, 7, 2, 3, 4, 5, 6, 7, 1, 2, 3, 4, 7, 0, 1, 2, 6, 7, 0, 1])
  (bH := [7, 8, 9, 10, 0, 1, 2, 3, 3, 4, 5, 3, 4, 5, 4, 5, 6, 7, 7, 8, 9, 10, 0, 1, 2, 3])
  (by decide +kernel)

theorem logo_12 : LogoOk 12 := logoOk_of (g := ⟨12, 65, [6, 32, 58], [(0, 4), (4, 2), (6, 1), (7, 1), (8, 1), (9, 21), (30, 5), (35, 19), (54, 2), (56, 1), (57, 4), (61, 4)]⟩) (k0 := 12) (cnt := 8) (p0 := 1404)
  (cws := [181, 182, 183, 184, 185, 197, 198, 199, 200, 201, 213, 214, 215, 216, 217, 228, 229, 230, 241, 242, 243, 254, 255, 256, 257, 269, 270, 271, 272, 284, 285, 286, 287, 288])
  (bL := [1, 2, 3, 0, 1, 1, 2, 3, 0, 1, 1, 2, 3, 0, 1, 0, 1, 2, 1, 2, 3, 2, 3, 0, 1, 1, 2, 3, 0, 0, 1, 2, 3, 0])
  (bM := [5, 6, 7, 0, 1, 5, 6, 7, 0, 1, 5, 6, 7, 0, 1, 4, 5, 6, 1, 2, 3, 6, 7, 0, 1, 5, 6, 7, 0, 4, 5, 6, 7, 6])
  (bQ := [1, 2, 3, 4, 5, 7, 8, 9, 4, 5, 7, 8, 9, 0, 1, 2, 3, 4, 5, 6, 7, 8, 9, 0, 1, 3, 4, 5, 6, 8, 9, 0, 1, 2])
  (bH := [1, 2, 3, 4, 5, 6, 7, 8, 9, 10, 0, 1, 2, 3, 4, 4, 5, 6, 6, 7, 8, 8, 9, 10, 0, 1, 2, 3, 4, 5, 6, 7, 8, 9])
  (by decide +kernel)

theorem logo_13 : LogoOk 13 := logoOk_of (g := ⟨13, 69, [6, 34, 62], [(0, 4), (4, 2), (6, 1), (7, 1), (8, 1), (9, 23), (32, 5), (37, 21), (58, 2), (60, 1), (61, 4), (65, 4)]⟩) (k0 := 13) (cnt := 8) (p0 := 1636)
  (cws := [211, 212, 213, 214, 228, 229, 230, 231, 245, 246, 247, 248, 261, 262, 263, 274, 275, 276, 288, 289, 290, 291, 304, 305, 306, 307, 321, 322, 323, 324, 325])
  (bL := [3, 0, 1, 2, 0, 1, 2, 3, 1, 2, 3, 0, 1, 2, 3, 2, 3, 0, 0, 1, 2, 3, 0, 1, 2, 3, 1, 2, 3, 0, 1])
  (bM := [4, 5, 6, 7, 3, 4, 5, 6, 2, 3, 4, 5, 0, 1, 2, 4, 5, 6, 0, 1, 2, 3, 7, 8, 0, 1, 6, 7, 8, 0, 1])
  (bQ := [7, 8, 9, 10, 0, 1, 2, 3, 1, 2, 3, 4, 5, 6, 7, 6, 7, 8, 8, 9, 10, 11, 0, 1, 2, 3, 5, 6, 7, 8, 9])
  (bH := [15, 0, 1, 2, 0, 1, 2, 3, 1, 2, 3, 4, 1, 2, 3, 14, 15, 0, 12, 13, 14, 15, 12, 13, 14, 15, 13, 14, 15, 0, 1])
  (by decide +kernel)

theorem logo_14 : LogoOk 14 := logoOk_of (g := ⟨14, 73, [6, 26, 46, 66], [(0, 4), (4, 2), (6, 1), (7, 1), (8, 1), (9, 15), (24, 5), (29, 15), (44, 5), (49, 13), (62, 2), (64, 1), (65, 4), (69, 4)]⟩) (k0 := 14) (cnt := 9) (p0 := 1783)
  (cws := [228, 229, 230, 231, 232, 245, 246, 247, 248, 249, 263, 264, 265, 266, 267, 281, 282, 283, 284, 285, 299, 300, 301, 302, 303, 317, 318, 319, 320, 321, 335, 336, 337, 338, 339, 353, 354, 355, 356, 357, 369, 370, 371, 372])
  (bL := [0, 1, 2, 3, 0, 1, 2, 3, 0, 1, 3, 0, 1, 2, 3, 1, 2, 3, 0, 1, 3, 0, 1, 2, 3, 1, 2, 3, 0, 1, 3, 0, 1, 2, 3, 1, 2, 3, 0, 1, 1, 2, 3, 0])
  (bM := [3, 4, 5, 6, 7, 2, 3, 4, 5, 6, 2, 3, 4, 5, 6, 2, 3, 4, 5, 6, 2, 3, 4, 5, 6, 2, 3, 4, 5, 6, 2, 3, 4, 5, 6, 2, 3, 4, 5, 6, 4, 5, 6, 7])
  (bQ := [4, 5, 6, 7, 8, 5, 6, 7, 8, 9, 2, 3, 4, 5, 6, 4, 5, 6, 7, 8, 6, 7, 8, 9, 10, 8, 9, 10, 11, 12, 10, 11, 12, 13, 14, 12, 13, 14, 15, 0, 12, 13, 14, 15])
  (bH := [15, 0, 1, 2, 3, 0, 1, 2, 3, 4, 2, 3, 4, 5, 6, 4, 5, 6, 7, 8, 6, 7, 8, 9, 10, 8, 9, 10, 11, 12, 10, 11, 12, 13, 14, 12, 13, 14, 15, 0, 12, 13, 14, 15])
  (by decide +kernel)

theorem logo_15 : LogoOk 15 := logoOk_of (g := ⟨15, 77, [6, 26, 48, 70], [(0, 4), (4, 2), (6, 1), (7, 1), (8, 1), (9, 15), (24, 5), (29, 17), (46, 5), (51, 15), (66, 2), (68, 1), (69, 4), (73, 4)]⟩) (k0 := 15) (cnt := 9) (p0 := 2047)
  (cws := [262, 263, 264, 265, 266, 280, 281, 282, 283, 284, 298, 299, 300, 301, 302, 318, 319, 320, 321, 322, 336, 337, 338, 339, 340, 356, 357, 358, 359, 360, 374, 375, 376, 377, 378, 394, 395, 396, 397, 398, 412, 413, 414, 415, 416])
  (bL := [4, 5, 0, 1, 2, 4, 5, 0, 1, 2, 4, 5, 0, 1, 2, 0, 1, 2, 3, 4, 0, 1, 2, 3, 4, 2, 3, 4, 5, 0, 2, 3, 4, 5, 0, 4, 5, 0, 1, 2, 4, 5, 0, 1, 2])
  (bM := [2, 3, 4, 5, 6, 0, 1, 2, 3, 4, 8, 9, 0, 1, 2, 8, 9, 0, 1, 2, 6, 7, 8, 9, 0, 6, 7, 8, 9, 0, 4, 5, 6, 7, 8, 4, 5, 6, 7, 8, 7, 8, 9, 0, 1])
  (bQ := [10, 11, 0, 1, 2, 4, 5, 6, 7, 8, 3, 4, 5, 6, 7, 11, 0, 1, 2, 3, 5, 6, 7, 8, 9, 1, 2, 3, 4, 5, 7, 8, 9, 10, 11, 3, 4, 5, 6, 7, 9, 10, 11, 0, 1])
  (bH := [3, 4, 5, 6, 7, 3, 4, 5, 6, 7, 3, 4, 5, 6, 7, 5, 6, 7, 8, 9, 5, 6, 7, 8, 9, 7, 8, 9, 10, 11, 7, 8, 9, 10, 11, 9, 10, 11, 12, 13, 9, 10, 11, 12, 13])
  (by decide +kernel)

theorem logo_16 : LogoOk 16 := logoOk_of (g := ⟨16, 81, [6, 26, 50, 74], [(0, 4), (4, 2), (6, 1), (7, 1), (8, 1), (9, 15), (24, 5), (29, 19), (48, 5), (53, 17), (70, 2), (72, 1), (73, 4), (77, 4)]⟩) (k0 := 16) (cnt := 9) (p0 := 2327)
  (cws := [297, 298, 299, 300, 301, 316, 317, 318, 319, 320, 336, 337, 338, 339, 340, 356, 357, 358, 359, 360, 376, 377, 378, 379, 380, 396, 397, 398, 399, 400, 416, 417, 418, 419, 420, 436, 437, 438, 439, 440, 456, 457, 458, 459, 460])
  (bL := [3, 4, 5, 0, 1, 4, 5, 0, 1, 2, 0, 1, 2, 3, 4, 2, 3, 4, 5, 0, 4, 5, 0, 1, 2, 0, 1, 2, 3, 4, 2, 3, 4, 5, 0, 4, 5, 0, 1, 2, 0, 1, 2, 3, 4])
  (bM := [7, 8, 9, 0, 1, 6, 7, 8, 9, 0, 6, 7, 8, 9, 0, 6, 7, 8, 9, 0, 6, 7, 8, 9, 0, 6, 7, 8, 9, 0, 6, 7, 8, 9, 0, 6, 7, 8, 9, 0, 3, 4, 5, 6, 7])
  (bQ := [8, 9, 10, 11, 12, 10, 11, 12, 13, 14, 11, 12, 13, 14, 15, 14, 15, 16, 0, 1, 0, 1, 2, 3, 4, 3, 4, 5, 6, 7, 6, 7, 8, 9, 10, 9, 10, 11, 12, 13, 12, 13, 14, 15, 16])
  (bH := [12, 13, 14, 15, 0, 15, 0, 1, 2, 3, 3, 4, 5, 6, 7, 7, 8, 9, 10, 11, 11, 12, 13, 14, 15, 15, 0, 1, 2, 3, 3, 4, 5, 6, 7, 7, 8, 9, 10, 11, 11, 12, 13, 14, 15])
  (by decide +kernel)

theorem logo_17 : LogoOk 17 := logoOk_of (g := ⟨17, 85, [6, 30, 54, 78], [(0, 4), (4, 2), (6, 1), (7, 1), (8, 1), (9, 19), (28, 5), (33, 19), (52, 5), (57, 17), (74, 2), (76, 1), (77, 4), (81, 4)]⟩) (k0 := 16) (cnt := 10) (p0 := 2455)
  (cws := [314, 315, 316, 317, 318, 333, 334, 335, 336, 337, 338, 354, 355, 356, 357, 358, 359, 375, 376, 377, 378, 379, 380, 396, 397, 398, 399, 400, 401, 417, 418, 419, 420, 421, 422, 438, 439, 440, 441, 442, 443, 459, 460, 461, 462, 463, 464, 480, 481, 482, 483, 484, 485, 501, 502, 503, 504, 505, 506])
  (bL := [2, 3, 4, 5, 0, 3, 4, 5, 0, 1, 2, 0, 1, 2, 3, 4, 5, 3, 4, 5, 0, 1, 2, 0, 1, 2, 3, 4, 5, 3, 4, 5, 0, 1, 2, 0, 1, 2, 3, 4, 5, 3, 4, 5, 0, 1, 2, 0, 1, 2, 3, 4, 5, 3, 4, 5, 0, 1, 2])
  (bM := [6, 7, 8, 9, 10, 3, 4, 5, 6, 7, 8, 2, 3, 4, 5, 6, 7, 1, 2, 3, 4, 5, 6, 0, 1, 2, 3, 4, 5, 10, 0, 1, 2, 3, 4, 9, 10, 0, 1, 2, 3, 8, 9, 10, 0, 1, 2, 7, 8, 9, 10, 0, 1, 6, 7, 8, 9, 10, 10])
  (bQ := [10, 11, 12, 13, 14, 13, 14, 15, 0, 1, 2, 3, 4, 5, 6, 7, 8, 8, 9, 10, 11, 12, 13, 13, 14, 15, 0, 1, 2, 2, 3, 4, 5, 6, 7, 7, 8, 9, 10, 11, 12, 12, 13, 14, 15, 0, 1, 1, 2, 3, 4, 5, 6, 6, 7, 8, 9, 10, 11])
  (bH := [12, 13, 14, 15, 16, 12, 13, 14, 15, 16, 17, 14, 15, 16, 17, 18, 0, 16, 17, 18, 0, 1, 2, 18, 0, 1, 2, 3, 4, 1, 2, 3, 4, 5, 6, 3, 4, 5, 6, 7, 8, 5, 6, 7, 8, 9, 10, 7, 8, 9, 10, 11, 12, 9, 10, 11, 12, 13, 14])
  (by decide +kernel)

theorem logo_18 : LogoOk 18 := logoOk_of (g := ⟨18, 89, [6, 30, 56, 82], [(0, 4), (4, 2), (6, 1), (7, 1), (8, 1), (9, 19), (28, 5), (33, 21), (54, 5), (59, 19), (78, 2), (80, 1), (81, 4), (85, 4)]⟩) (k0 := 17) (cnt := 10) (p0 := 2759)
  (cws := [352, 353, 354, 355, 356, 373, 374, 375, 376, 377, 395, 396, 397, 398, 399, 417, 418, 419, 420, 421, 439, 440, 441, 442, 443, 461, 462, 463, 464, 465, 483, 484, 485, 486, 487, 505, 506, 507, 508, 509, 527, 528, 529, 530, 531, 549, 550, 551, 552, 553])
  (bL := [4, 5, 0, 1, 2, 1, 2, 3, 4, 5, 5, 0, 1, 2, 3, 3, 4, 5, 0, 1, 1, 2, 3, 4, 5, 5, 0, 1, 2, 3, 3, 4, 5, 0, 1, 1, 2, 3, 4, 5, 5, 0, 1, 2, 3, 3, 4, 5, 0, 1])
  (bM := [1, 2, 3, 4, 5, 9, 10, 11, 12, 0, 5, 6, 7, 8, 9, 1, 2, 3, 4, 5, 10, 11, 12, 0, 1, 6, 7, 8, 9, 10, 2, 3, 4, 5, 6, 11, 12, 0, 1, 2, 7, 8, 9, 10, 11, 3, 4, 5, 6, 7])
  (bQ := [10, 11, 12, 13, 14, 13, 14, 15, 16, 17, 17, 17, 0, 1, 2, 2, 3, 4, 5, 6, 6, 7, 8, 9, 10, 10, 11, 12, 13, 14, 14, 15, 16, 17, 0, 0, 1, 2, 3, 4, 4, 5, 6, 7, 8, 8, 9, 10, 11, 12])
  (bH := [18, 19, 20, 0, 1, 18, 19, 20, 0, 1, 19, 20, 0, 1, 2, 20, 0, 1, 2, 3, 0, 1, 2, 3, 4, 1, 2, 3, 4, 5, 2, 3, 4, 5, 6, 3, 4, 5, 6, 7, 4, 5, 6, 7, 8, 5, 6, 7, 8, 9])
  (by decide +kernel)

theorem logo_19 : LogoOk 19 := logoOk_of (g := ⟨19, 93, [6, 30, 58, 86], [(0, 4), (4, 2), (6, 1), (7, 1), (8, 1), (9, 19), (28, 5), (33, 23), (56, 5), (61, 21), (82, 2), (84, 1), (85, 4), (89, 4)]⟩) (k0 := 18) (cnt := 11) (p0 := 3079)
  (cws := [392, 393, 394, 395, 396, 397, 414, 415, 416, 417, 418, 419, 437, 438, 439, 440, 441, 442, 460, 461, 462, 463, 464, 465, 483, 484, 485, 486, 487, 488, 506, 507, 508, 509, 510, 511, 529, 530, 531, 532, 533, 534, 552, 553, 554, 555, 556, 557, 575, 576, 577, 578, 579, 580, 598, 599, 600, 601, 602, 603, 621, 622, 623, 624, 625, 626])
  (bL := [0, 1, 2, 3, 4, 5, 1, 2, 3, 4, 5, 6, 3, 4, 5, 6, 0, 1, 5, 6, 0, 1, 2, 3, 0, 1, 2, 3, 4, 5, 2, 3, 4, 5, 6, 0, 4, 5, 6, 0, 1, 2, 6, 0, 1, 2, 3, 4, 1, 2, 3, 4, 5, 6, 3, 4, 5, 6, 0, 1, 5, 6, 0, 1, 2, 3])
  (bM := [0, 1, 2, 3, 4, 5, 8, 9, 10, 11, 12, 13, 3, 4, 5, 6, 7, 8, 12, 13, 0, 1, 2, 3, 7, 8, 9, 10, 11, 12, 2, 3, 4, 5, 6, 7, 11, 12, 13, 0, 1, 2, 6, 7, 8, 9, 10, 11, 1, 2, 3, 4, 5, 6, 10, 11, 12, 13, 0, 1, 8, 9, 10, 11, 12, 13])
  (bQ := [14, 15, 16, 17, 18, 19, 15, 16, 17, 18, 19, 20, 17, 18, 19, 20, 17, 18, 15, 16, 17, 18, 19, 20, 17, 18, 19, 20, 0, 1, 19, 20, 0, 1, 2, 3, 0, 1, 2, 3, 4, 5, 2, 3, 4, 5, 6, 7, 4, 5, 6, 7, 8, 9, 6, 7, 8, 9, 10, 11, 8, 9, 10, 11, 12, 13])
  (bH := [1, 2, 3, 4, 5, 6, 23, 24, 0, 1, 2, 3, 21, 22, 23, 24, 0, 1, 19, 20, 21, 22, 23, 24, 17, 18, 19, 20, 21, 22, 15, 16, 17, 18, 19, 20, 13, 14, 15, 16, 17, 18, 11, 12, 13, 14, 15, 16, 9, 10, 11, 12, 13, 14, 7, 8, 9, 10, 11, 12, 5, 6, 7, 8, 9, 10])
  (by decide +kernel)

theorem logo_20 : LogoOk 20 := logoOk_of (g := ⟨20, 97, [6, 34, 62, 90], [(0, 4), (4, 2), (6, 1), (7, 1), (8, 1), (9, 23), (32, 5), (37, 23), (60, 5), (65, 21), (86, 2), (88, 1), (89, 4), (93, 4)]⟩) (k0 := 19) (cnt := 11) (p0 := 3396)
  (cws := [433, 434, 435, 436, 437, 438, 458, 459, 460, 461, 462, 463, 481, 482, 483, 484, 485, 486, 506, 507, 508, 509, 510, 511, 529, 530, 531, 532, 533, 534, 554, 555, 556, 557, 558, 559, 577, 578, 579, 580, 581, 582, 602, 603, 604, 605, 606, 607, 625, 626, 627, 628, 629, 630, 650, 651, 652, 653, 654, 655, 673, 674, 675, 676, 677, 678])
  (bL := [1, 2, 3, 4, 5, 6, 2, 3, 4, 5, 6, 7, 1, 2, 3, 4, 5, 6, 2, 3, 4, 5, 6, 7, 1, 2, 3, 4, 5, 6, 2, 3, 4, 5, 6, 7, 1, 2, 3, 4, 5, 6, 2, 3, 4, 5, 6, 7, 1, 2, 3, 4, 5, 6, 2, 3, 4, 5, 6, 7, 1, 2, 3, 4, 5, 6])
  (bM := [1, 2, 3, 4, 5, 6, 10, 11, 12, 13, 14, 15, 1, 2, 3, 4, 5, 6, 10, 11, 12, 13, 14, 15, 1, 2, 3, 4, 5, 6, 10, 11, 12, 13, 14, 15, 1, 2, 3, 4, 5, 6, 10, 11, 12, 13, 14, 15, 1, 2, 3, 4, 5, 6, 10, 11, 12, 13, 14, 15, 4, 5, 6, 7, 8, 9])
  (bQ := [13, 14, 15, 16, 17, 18, 18, 19, 0, 1, 2, 3, 16, 17, 18, 19, 0, 1, 1, 2, 3, 4, 5, 6, 4, 5, 6, 7, 8, 9, 9, 10, 11, 12, 13, 14, 12, 13, 14, 15, 16, 17, 17, 18, 19, 0, 1, 2, 0, 1, 2, 3, 4, 5, 5, 6, 7, 8, 9, 10, 8, 9, 10, 11, 12, 13])
  (bH := [23, 24, 0, 1, 2, 3, 23, 24, 0, 1, 2, 3, 21, 22, 23, 24, 0, 1, 21, 22, 23, 24, 0, 1, 19, 20, 21, 22, 23, 24, 19, 20, 21, 22, 23, 24, 17, 18, 19, 20, 21, 22, 17, 18, 19, 20, 21, 22, 15, 16, 17, 18, 19, 20, 15, 16, 17, 18, 19, 20, 13, 14, 15, 16, 17, 18])
  (by decide +kernel)

theorem logo_21 : LogoOk 21 := logoOk_of (g := ⟨21, 101, [6, 28, 50, 72, 94], [(0, 4), (4, 2), (6, 1), (7, 1), (8, 1), (9, 17), (26, 5), (31, 17), (48, 5), (53, 17), (70, 5), (75, 15), (90, 2), (92, 1), (93, 4), (97, 4)]⟩) (k0 := 20) (cnt := 11) (p0 := 3698)
  (cws := [472, 473, 474, 475, 476, 477, 497, 498, 499, 500, 501, 502, 522, 523, 524, 525, 526, 527, 547, 548, 549, 550, 551, 552, 569, 570, 571, 572, 573, 588, 589, 590, 591, 592, 609, 610, 611, 612, 613, 632, 633, 634, 635, 636, 637, 657, 658, 659, 660, 661, 662, 682, 683, 684, 685, 686, 687, 707, 708, 709, 710, 711, 712])
  (bL := [0, 1, 2, 3, 4, 5, 1, 2, 3, 4, 5, 6, 2, 3, 4, 5, 6, 7, 3, 4, 5, 6, 7, 0, 1, 2, 3, 4, 5, 4, 5, 6, 7, 0, 1, 2, 3, 4, 5, 0, 1, 2, 3, 4, 5, 1, 2, 3, 4, 5, 6, 2, 3, 4, 5, 6, 7, 3, 4, 5, 6, 7, 0])
  (bM := [13, 14, 15, 16, 0, 1, 4, 5, 6, 7, 8, 9, 12, 13, 14, 15, 16, 0, 3, 4, 5, 6, 7, 8, 8, 9, 10, 11, 12, 10, 11, 12, 13, 14, 14, 15, 16, 0, 1, 3, 4, 5, 6, 7, 8, 11, 12, 13, 14, 15, 16, 2, 3, 4, 5, 6, 7, 10, 11, 12, 13, 14, 15])
  (bQ := [12, 13, 14, 15, 16, 17, 14, 15, 16, 17, 18, 19, 10, 11, 12, 13, 14, 15, 12, 13, 14, 15, 16, 17, 11, 12, 13, 14, 15, 7, 8, 9, 10, 11, 5, 6, 7, 8, 9, 5, 6, 7, 8, 9, 10, 7, 8, 9, 10, 11, 12, 9, 10, 11, 12, 13, 14, 11, 12, 13, 14, 15, 16])
  (bH := [16, 17, 18, 19, 20, 21, 16, 17, 18, 19, 20, 21, 16, 17, 18, 19, 20, 21, 16, 17, 18, 19, 20, 21, 13, 14, 15, 16, 17, 7, 8, 9, 10, 11, 3, 4, 5, 6, 7, 1, 2, 3, 4, 5, 6, 1, 2, 3, 4, 5, 6, 1, 2, 3, 4, 5, 6, 1, 2, 3, 4, 5, 6])
  (by decide +kernel)

theorem logo_22 : LogoOk 22 := logoOk_of (g := ⟨22, 105, [6, 26, 50, 74, 98], [(0, 4), (4, 2), (6, 1), (7, 1), (8, 1), (9, 15), (24, 5), (29, 19), (48, 5), (53, 19), (72, 5), (77, 17), (94, 2), (96, 1), (97, 4), (101, 4)]⟩) (k0 := 20) (cnt := 12) (p0 := 3858)
  (cws := [492, 493, 494, 495, 496, 497, 498, 518, 519, 520, 521, 522, 523, 544, 545, 546, 547, 548, 549, 550, 570, 571, 572, 573, 574, 575, 596, 597, 598, 599, 600, 601, 602, 622, 623, 624, 625, 626, 627, 646, 647, 648, 649, 650, 666, 667, 668, 669, 670, 687, 688, 689, 690, 691, 692, 711, 712, 713, 714, 715, 716, 737, 738, 739, 740, 741, 742, 743, 763, 764, 765, 766, 767, 768])
  (bL := [6, 7, 8, 0, 1, 2, 3, 5, 6, 7, 8, 0, 1, 4, 5, 6, 7, 8, 0, 1, 3, 4, 5, 6, 7, 8, 2, 3, 4, 5, 6, 7, 8, 1, 2, 3, 4, 5, 6, 7, 8, 0, 1, 2, 0, 1, 2, 3, 4, 3, 4, 5, 6, 7, 8, 0, 1, 2, 3, 4, 5, 8, 0, 1, 2, 3, 4, 5, 7, 8, 0, 1, 2, 3])
  (bM := [16, 0, 1, 2, 3, 4, 5, 8, 9, 10, 11, 12, 13, 0, 1, 2, 3, 4, 5, 6, 9, 10, 11, 12, 13, 14, 1, 2, 3, 4, 5, 6, 7, 10, 11, 12, 13, 14, 15, 0, 1, 2, 3, 4, 3, 4, 5, 6, 7, 7, 8, 9, 10, 11, 12, 14, 15, 16, 0, 1, 2, 6, 7, 8, 9, 10, 11, 12, 15, 16, 0, 1, 2, 3])
  (bQ := [9, 10, 11, 12, 13, 14, 15, 12, 13, 14, 15, 16, 17, 15, 16, 17, 18, 19, 20, 21, 2, 3, 4, 5, 6, 7, 5, 6, 7, 8, 9, 10, 11, 8, 9, 10, 11, 12, 13, 9, 10, 11, 12, 13, 6, 7, 8, 9, 10, 4, 5, 6, 7, 8, 9, 5, 6, 7, 8, 9, 10, 8, 9, 10, 11, 12, 13, 14, 11, 12, 13, 14, 15, 16])
  (bH := [16, 17, 18, 19, 20, 21, 22, 8, 9, 10, 11, 12, 13, 0, 1, 2, 3, 4, 5, 6, 26, 27, 28, 29, 30, 31, 18, 19, 20, 21, 22, 23, 24, 10, 11, 12, 13, 14, 15, 0, 1, 2, 3, 4, 20, 21, 22, 23, 24, 7, 8, 9, 10, 11, 12, 31, 32, 33, 0, 1, 2, 23, 24, 25, 26, 27, 28, 29, 15, 16, 17, 18, 19, 20])
  (by decide +kernel)

theorem logo_23 : LogoOk 23 := logoOk_of (g := ⟨23, 109, [6, 30, 54, 78, 102], [(0, 4), (4, 2), (6, 1), (7, 1), (8, 1), (9, 19), (28, 5), (33, 19), (52, 5), (57, 19), (76, 5), (81, 17), (98, 2), (100, 1), (101, 4), (105, 4)]⟩) (k0 := 21) (cnt := 12) (p0 := 4234)
  (cws := [539, 540, 541, 542, 543, 544, 545, 567, 568, 569, 570, 571, 572, 593, 594, 595, 596, 597, 598, 599, 621, 622, 623, 624, 625, 626, 647, 648, 649, 650, 651, 652, 653, 672, 673, 674, 675, 676, 693, 694, 695, 696, 697, 715, 716, 717, 718, 719, 720, 740, 741, 742, 743, 744, 745, 746, 768, 769, 770, 771, 772, 773, 794, 795, 796, 797, 798, 799, 800, 822, 823, 824, 825, 826, 827])
  (bL := [8, 0, 1, 2, 3, 4, 5, 0, 1, 2, 3, 4, 5, 8, 0, 1, 2, 3, 4, 5, 0, 1, 2, 3, 4, 5, 8, 0, 1, 2, 3, 4, 5, 6, 7, 8, 0, 1, 0, 1, 2, 3, 4, 4, 5, 6, 7, 8, 0, 2, 3, 4, 5, 6, 7, 8, 3, 4, 5, 6, 7, 8, 2, 3, 4, 5, 6, 7, 8, 3, 4, 5, 6, 7, 8])
  (bM := [17, 0, 1, 2, 3, 4, 5, 9, 10, 11, 12, 13, 14, 17, 0, 1, 2, 3, 4, 5, 9, 10, 11, 12, 13, 14, 17, 0, 1, 2, 3, 4, 5, 6, 7, 8, 9, 10, 9, 10, 11, 12, 13, 13, 14, 15, 16, 17, 0, 2, 3, 4, 5, 6, 7, 8, 12, 13, 14, 15, 16, 17, 2, 3, 4, 5, 6, 7, 8, 12, 13, 14, 15, 16, 17])
  (bQ := [14, 15, 16, 17, 18, 19, 20, 17, 18, 19, 20, 21, 22, 18, 19, 20, 21, 22, 23, 24, 7, 8, 9, 10, 11, 12, 8, 9, 10, 11, 12, 13, 14, 8, 9, 10, 11, 12, 4, 5, 6, 7, 8, 1, 2, 3, 4, 5, 6, 1, 2, 3, 4, 5, 6, 7, 4, 5, 6, 7, 8, 9, 5, 6, 7, 8, 9, 10, 11, 8, 9, 10, 11, 12, 13])
  (bH := [15, 16, 17, 18, 19, 20, 21, 13, 14, 15, 16, 17, 18, 9, 10, 11, 12, 13, 14, 15, 7, 8, 9, 10, 11, 12, 3, 4, 5, 6, 7, 8, 9, 28, 29, 0, 1, 2, 19, 20, 21, 22, 23, 11, 12, 13, 14, 15, 16, 6, 7, 8, 9, 10, 11, 12, 4, 5, 6, 7, 8, 9, 0, 1, 2, 3, 4, 5, 6, 28, 29, 0, 1, 2, 3])
  (by decide +kernel)

theorem logo_24 : LogoOk 24 := logoOk_of (g := ⟨24, 113, [6, 28, 54, 80, 106], [(0, 4), (4, 2), (6, 1), (7, 1), (8, 1), (9, 17), (26, 5), (31, 21), (52, 5), (57, 21), (78, 5), (83, 19), (102, 2), (104, 1), (105, 4), (109, 4)]⟩) (k0 := 22) (cnt := 13) (p0 := 4626)
  (cws := [589, 590, 591, 592, 593, 594, 595, 617, 618, 619, 620, 621, 622, 623, 645, 646, 647, 648, 649, 650, 651, 673, 674, 675, 676, 677, 678, 679, 701, 702, 703, 704, 705, 706, 707, 729, 730, 731, 732, 733, 734, 735, 754, 755, 756, 757, 758, 759, 776, 777, 778, 779, 780, 781, 800, 801, 802, 803, 804, 805, 826, 827, 828, 829, 830, 831, 832, 854, 855, 856, 857, 858, 859, 860, 882, 883, 884, 885, 886, 887, 888, 910, 911, 912, 913, 914, 915, 916])
  (bL := [9, 0, 1, 2, 3, 4, 5, 7, 8, 9, 0, 1, 2, 3, 5, 6, 7, 8, 9, 0, 1, 3, 4, 5, 6, 7, 8, 9, 1, 2, 3, 4, 5, 6, 7, 9, 0, 1, 2, 3, 4, 5, 4, 5, 6, 7, 8, 9, 6, 7, 8, 9, 0, 1, 0, 1, 2, 3, 4, 5, 6, 7, 8, 9, 0, 1, 2, 4, 5, 6, 7, 8, 9, 0, 2, 3, 4, 5, 6, 7, 8, 0, 1, 2, 3, 4, 5, 6])
  (bM := [9, 10, 11, 12, 13, 14, 15, 17, 18, 19, 0, 1, 2, 3, 5, 6, 7, 8, 9, 10, 11, 13, 14, 15, 16, 17, 18, 19, 1, 2, 3, 4, 5, 6, 7, 9, 10, 11, 12, 13, 14, 15, 14, 15, 16, 17, 18, 19, 16, 17, 18, 19, 0, 1, 0, 1, 2, 3, 4, 5, 6, 7, 8, 9, 10, 11, 12, 14, 15, 16, 17, 18, 19, 0, 2, 3, 4, 5, 6, 7, 8, 16, 17, 18, 19, 0, 1, 2])
  (bQ := [22, 23, 24, 25, 26, 0, 1, 23, 24, 25, 26, 0, 1, 2, 24, 25, 26, 11, 12, 13, 14, 9, 10, 11, 12, 13, 14, 15, 10, 11, 12, 13, 14, 15, 16, 11, 12, 13, 14, 15, 16, 17, 9, 10, 11, 12, 13, 14, 4, 5, 6, 7, 8, 9, 1, 2, 3, 4, 5, 6, 0, 1, 2, 3, 4, 5, 6, 1, 2, 3, 4, 5, 6, 7, 2, 3, 4, 5, 6, 7, 8, 3, 4, 5, 6, 7, 8, 9])
  (bH := [11, 12, 13, 14, 15, 16, 17, 7, 8, 9, 10, 11, 12, 13, 3, 4, 5, 6, 7, 8, 9, 31, 0, 1, 2, 3, 4, 5, 27, 28, 29, 30, 31, 0, 1, 23, 24, 25, 26, 27, 28, 29, 16, 17, 18, 19, 20, 21, 6, 7, 8, 9, 10, 11, 30, 31, 0, 1, 2, 3, 24, 25, 26, 27, 28, 29, 30, 20, 21, 22, 23, 24, 25, 26, 16, 17, 18, 19, 20, 21, 22, 12, 13, 14, 15, 16, 17, 18])
  (by decide +kernel)

theorem logo_25 : LogoOk 25 := logoOk_of (g := ⟨25, 117, [6, 32, 58, 84, 110], [(0, 4), (4, 2), (6, 1), (7, 1), (8, 1), (9, 21), (30, 5), (35, 21), (56, 5), (61, 21), (82, 5), (87, 19), (106, 2), (108, 1), (109, 4), (113, 4)]⟩) (k0 := 23) (cnt := 13) (p0 := 5034)
  (cws := [640, 641, 642, 643, 644, 645, 646, 669, 670, 671, 672, 673, 674, 675, 698, 699, 700, 701, 702, 703, 704, 727, 728, 729, 730, 731, 732, 733, 756, 757, 758, 759, 760, 761, 762, 783, 784, 785, 786, 787, 788, 806, 807, 808, 809, 810, 811, 830, 831, 832, 833, 834, 835, 836, 857, 858, 859, 860, 861, 862, 863, 886, 887, 888, 889, 890, 891, 892, 915, 916, 917, 918, 919, 920, 921, 944, 945, 946, 947, 948, 949, 950, 973, 974, 975, 976, 977, 978, 979])
  (bL := [4, 5, 6, 7, 8, 9, 10, 9, 10, 11, 0, 1, 2, 3, 2, 3, 4, 5, 6, 7, 8, 7, 8, 9, 10, 11, 0, 1, 0, 1, 2, 3, 4, 5, 6, 3, 4, 5, 6, 7, 8, 2, 3, 4, 5, 6, 7, 2, 3, 4, 5, 6, 7, 8, 5, 6, 7, 8, 9, 10, 11, 10, 11, 0, 1, 2, 3, 4, 3, 4, 5, 6, 7, 8, 9, 8, 9, 10, 11, 0, 1, 2, 1, 2, 3, 4, 5, 6, 7])
  (bM := [10, 11, 12, 13, 14, 15, 16, 18, 19, 20, 0, 1, 2, 3, 5, 6, 7, 8, 9, 10, 11, 13, 14, 15, 16, 17, 18, 19, 0, 1, 2, 3, 4, 5, 6, 6, 7, 8, 9, 10, 11, 8, 9, 10, 11, 12, 13, 11, 12, 13, 14, 15, 16, 17, 17, 18, 19, 20, 0, 1, 2, 4, 5, 6, 7, 8, 9, 10, 12, 13, 14, 15, 16, 17, 18, 20, 0, 1, 2, 3, 4, 5, 7, 8, 9, 10, 11, 12, 13])
  (bQ := [2, 3, 4, 5, 6, 7, 8, 2, 3, 4, 5, 6, 7, 8, 9, 10, 11, 12, 13, 14, 15, 9, 10, 11, 12, 13, 14, 15, 9, 10, 11, 12, 13, 14, 15, 7, 8, 9, 10, 11, 12, 1, 2, 3, 4, 5, 6, 25, 26, 27, 28, 0, 1, 2, 23, 24, 25, 26, 27, 28, 0, 23, 24, 25, 26, 27, 28, 0, 23, 24, 25, 26, 27, 28, 0, 23, 24, 25, 26, 27, 28, 0, 23, 24, 25, 26, 27, 28, 0])
  (bH := [32, 33, 34, 0, 1, 2, 3, 26, 27, 28, 29, 30, 31, 32, 20, 21, 22, 23, 24, 25, 26, 14, 15, 16, 17, 18, 19, 20, 8, 9, 10, 11, 12, 13, 14, 0, 1, 2, 3, 4, 5, 23, 24, 25, 26, 27, 28, 12, 13, 14, 15, 16, 17, 18, 4, 5, 6, 7, 8, 9, 10, 33, 34, 0, 1, 2, 3, 4, 27, 28, 29, 30, 31, 32, 33, 21, 22, 23, 24, 25, 26, 27, 15, 16, 17, 18, 19, 20, 21])
  (by decide +kernel)

theorem logo_26 : LogoOk 26 := logoOk_of (g := ⟨26, 121, [6, 30, 58, 86, 114], [(0, 4), (4, 2), (6, 1), (7, 1), (8, 1), (9, 19), (28, 5), (33, 23), (56, 5), (61, 23), (84, 5), (89, 21), (110, 2), (112, 1), (113, 4), (117, 4)]⟩) (k0 := 24) (cnt := 13) (p0 := 5458)
  (cws := [694, 695, 696, 697, 698, 699, 700, 724, 725, 726, 727, 728, 729, 730, 754, 755, 756, 757, 758, 759, 760, 784, 785, 786, 787, 788, 789, 790, 814, 815, 816, 817, 818, 819, 820, 844, 845, 846, 847, 848, 849, 850, 871, 872, 873, 874, 875, 876, 895, 896, 897, 898, 899, 900, 921, 922, 923, 924, 925, 926, 949, 950, 951, 952, 953, 954, 955, 979, 980, 981, 982, 983, 984, 985, 1009, 1010, 1011, 1012, 1013, 1014, 1015, 1039, 1040, 1041, 1042, 1043, 1044, 1045])
  (bL := [10, 11, 0, 1, 2, 3, 4, 4, 5, 6, 7, 8, 9, 10, 10, 11, 0, 1, 2, 3, 4, 4, 5, 6, 7, 8, 9, 10, 10, 11, 0, 1, 2, 3, 4, 4, 5, 6, 7, 8, 9, 10, 7, 8, 9, 10, 11, 0, 7, 8, 9, 10, 11, 0, 9, 10, 11, 0, 1, 2, 1, 2, 3, 4, 5, 6, 7, 7, 8, 9, 10, 11, 0, 1, 1, 2, 3, 4, 5, 6, 7, 7, 8, 9, 10, 11, 0, 1])
  (bM := [4, 5, 6, 7, 8, 9, 10, 11, 12, 13, 14, 15, 16, 17, 18, 19, 20, 21, 22, 0, 1, 2, 3, 4, 5, 6, 7, 8, 9, 10, 11, 12, 13, 14, 15, 16, 17, 18, 19, 20, 21, 22, 20, 21, 22, 0, 1, 2, 21, 22, 0, 1, 2, 3, 1, 2, 3, 4, 5, 6, 6, 7, 8, 9, 10, 11, 12, 13, 14, 15, 16, 17, 18, 19, 20, 21, 22, 0, 1, 2, 3, 4, 5, 6, 7, 8, 9, 10])
  (bQ := [14, 15, 16, 17, 18, 19, 20, 10, 11, 12, 13, 14, 15, 16, 0, 1, 2, 3, 4, 5, 6, 30, 31, 32, 33, 0, 1, 2, 26, 27, 28, 29, 30, 31, 32, 22, 23, 24, 25, 26, 27, 28, 15, 16, 17, 18, 19, 20, 5, 6, 7, 8, 9, 10, 31, 32, 33, 0, 1, 2, 25, 26, 27, 28, 29, 30, 31, 21, 22, 23, 24, 25, 26, 27, 17, 18, 19, 20, 21, 22, 23, 13, 14, 15, 16, 17, 18, 19])
  (bH := [24, 25, 26, 27, 28, 29, 30, 17, 18, 19, 20, 21, 22, 23, 10, 11, 12, 13, 14, 15, 16, 3, 4, 5, 6, 7, 8, 9, 33, 34, 35, 36, 0, 1, 2, 26, 27, 28, 29, 30, 31, 32, 16, 17, 18, 19, 20, 21, 3, 4, 5, 6, 7, 8, 29, 30, 31, 32, 33, 34, 20, 21, 22, 23, 24, 25, 26, 13, 14, 15, 16, 17, 18, 19, 6, 7, 8, 9, 10, 11, 12, 36, 0, 1, 2, 3, 4, 5])
  (by decide +kernel)

theorem logo_27 : LogoOk 27 := logoOk_of (g := ⟨27, 125, [6, 34, 62, 90, 118], [(0, 4), (4, 2), (6, 1), (7, 1), (8, 1), (9, 23), (32, 5), (37, 23), (60, 5), (65, 23), (88, 5), (93, 21), (114, 2), (116, 1), (117, 4), (121, 4)]⟩) (k0 := 24) (cnt := 14) (p0 := 5650)
  (cws := [718, 719, 720, 721, 722, 723, 724, 725, 749, 750, 751, 752, 753, 754, 755, 780, 781, 782, 783, 784, 785, 786, 787, 811, 812, 813, 814, 815, 816, 817, 842, 843, 844, 845, 846, 847, 848, 849, 873, 874, 875, 876, 877, 878, 879, 902, 903, 904, 905, 906, 907, 927, 928, 929, 930, 931, 932, 953, 954, 955, 956, 957, 958, 959, 982, 983, 984, 985, 986, 987, 988, 1013, 1014, 1015, 1016, 1017, 1018, 1019, 1020, 1044, 1045, 1046, 1047, 1048, 1049, 1050, 1075, 1076, 1077, 1078, 1079, 1080, 1081, 1082, 1106, 1107, 1108, 1109, 1110, 1111, 1112])
  (bL := [10, 11, 0, 1, 2, 3, 4, 5, 5, 6, 7, 8, 9, 10, 11, 0, 1, 2, 3, 4, 5, 6, 7, 7, 8, 9, 10, 11, 0, 1, 2, 3, 4, 5, 6, 7, 8, 9, 9, 10, 11, 0, 1, 2, 3, 2, 3, 4, 5, 6, 7, 3, 4, 5, 6, 7, 8, 5, 6, 7, 8, 9, 10, 11, 10, 11, 0, 1, 2, 3, 4, 5, 6, 7, 8, 9, 10, 11, 0, 0, 1, 2, 3, 4, 5, 6, 7, 8, 9, 10, 11, 0, 1, 2, 2, 3, 4, 5, 6, 7, 8])
  (bM := [18, 19, 20, 21, 22, 23, 24, 0, 24, 0, 1, 2, 3, 4, 5, 5, 6, 7, 8, 9, 10, 11, 12, 11, 12, 13, 14, 15, 16, 17, 17, 18, 19, 20, 21, 22, 23, 24, 23, 24, 0, 1, 2, 3, 4, 2, 3, 4, 5, 6, 7, 2, 3, 4, 5, 6, 7, 3, 4, 5, 6, 7, 8, 9, 7, 8, 9, 10, 11, 12, 13, 13, 14, 15, 16, 17, 18, 19, 20, 19, 20, 21, 22, 23, 24, 0, 0, 1, 2, 3, 4, 5, 6, 7, 6, 7, 8, 9, 10, 11, 12])
  (bQ := [4, 5, 6, 7, 8, 9, 10, 11, 1, 2, 3, 4, 5, 6, 7, 32, 33, 8, 9, 10, 11, 12, 13, 3, 4, 5, 6, 7, 8, 9, 0, 1, 2, 3, 4, 5, 6, 7, 31, 32, 33, 0, 1, 2, 3, 26, 27, 28, 29, 30, 31, 17, 18, 19, 20, 21, 22, 9, 10, 11, 12, 13, 14, 15, 4, 5, 6, 7, 8, 9, 10, 1, 2, 3, 4, 5, 6, 7, 8, 32, 33, 0, 1, 2, 3, 4, 29, 30, 31, 32, 33, 0, 1, 2, 26, 27, 28, 29, 30, 31, 32])
  (bH := [10, 11, 12, 13, 14, 15, 16, 17, 1, 2, 3, 4, 5, 6, 7, 32, 33, 34, 35, 36, 37, 38, 39, 23, 24, 25, 26, 27, 28, 29, 14, 15, 16, 17, 18, 19, 20, 21, 5, 6, 7, 8, 9, 10, 11, 34, 35, 36, 37, 38, 39, 19, 20, 21, 22, 23, 24, 5, 6, 7, 8, 9, 10, 11, 34, 35, 36, 37, 38, 39, 0, 25, 26, 27, 28, 29, 30, 31, 32, 16, 17, 18, 19, 20, 21, 22, 7, 8, 9, 10, 11, 12, 13, 14, 38, 39, 0, 1, 2, 3, 4])
  (by decide +kernel)

theorem logo_28 : LogoOk 28 := logoOk_of (g := ⟨28, 129, [6, 26, 50, 74, 98, 122], [(0, 4), (4, 2), (6, 1), (7, 1), (8, 1), (9, 15), (24, 5), (29, 19), (48, 5), (53, 19), (72, 5), (77, 19), (96, 5), (101, 17), (118, 2), (120, 1), (121, 4), (125, 4)]⟩) (k0 := 25) (cnt := 14) (p0 := 6048)
  (cws := [768, 769, 770, 771, 772, 773, 774, 775, 798, 799, 800, 801, 802, 803, 822, 823, 824, 825, 826, 827, 849, 850, 851, 852, 853, 854, 878, 879, 880, 881, 882, 883, 884, 885, 910, 911, 912, 913, 914, 915, 916, 917, 942, 943, 944, 945, 946, 947, 948, 949, 974, 975, 976, 977, 978, 979, 980, 981, 1006, 1007, 1008, 1009, 1010, 1011, 1012, 1013, 1038, 1039, 1040, 1041, 1042, 1043, 1044, 1045, 1070, 1071, 1072, 1073, 1074, 1075, 1076, 1077, 1102, 1103, 1104, 1105, 1106, 1107, 1108, 1109, 1134, 1135, 1136, 1137, 1138, 1139, 1140, 1141, 1164, 1165, 1166, 1167, 1168, 1169])
  (bL := [1, 2, 3, 4, 5, 6, 7, 8, 5, 6, 7, 8, 9, 10, 3, 4, 5, 6, 7, 8, 4, 5, 6, 7, 8, 9, 7, 8, 9, 10, 11, 12, 0, 1, 0, 1, 2, 3, 4, 5, 6, 7, 6, 7, 8, 9, 10, 11, 12, 0, 12, 0, 1, 2, 3, 4, 5, 6, 5, 6, 7, 8, 9, 10, 11, 12, 11, 12, 0, 1, 2, 3, 4, 5, 4, 5, 6, 7, 8, 9, 10, 11, 10, 11, 12, 0, 1, 2, 3, 4, 3, 4, 5, 6, 7, 8, 9, 10, 7, 8, 9, 10, 11, 12])
  (bM := [14, 15, 16, 17, 18, 19, 20, 21, 18, 19, 20, 21, 22, 23, 16, 17, 18, 19, 20, 21, 17, 18, 19, 20, 21, 22, 20, 21, 22, 23, 24, 25, 0, 1, 0, 1, 2, 3, 4, 5, 6, 7, 6, 7, 8, 9, 10, 11, 12, 13, 12, 13, 14, 15, 16, 17, 18, 19, 18, 19, 20, 21, 22, 23, 24, 25, 24, 25, 0, 1, 2, 3, 4, 5, 4, 5, 6, 7, 8, 9, 10, 11, 10, 11, 12, 13, 14, 15, 16, 17, 16, 17, 18, 19, 20, 21, 22, 23, 20, 21, 22, 23, 24, 25])
  (bQ := [33, 34, 0, 1, 2, 3, 4, 5, 28, 29, 30, 31, 32, 33, 17, 18, 19, 20, 21, 22, 13, 14, 15, 16, 17, 18, 7, 8, 9, 10, 11, 12, 13, 14, 4, 5, 6, 7, 8, 9, 10, 11, 1, 2, 3, 4, 5, 6, 7, 8, 33, 34, 0, 1, 2, 3, 4, 5, 30, 31, 32, 33, 34, 0, 1, 2, 27, 28, 29, 30, 31, 32, 33, 34, 24, 25, 26, 27, 28, 29, 30, 31, 21, 22, 23, 24, 25, 26, 27, 28, 18, 19, 20, 21, 22, 23, 24, 25, 13, 14, 15, 16, 17, 18])
  (bH := [23, 24, 25, 26, 27, 28, 29, 30, 11, 12, 13, 14, 15, 16, 35, 36, 37, 38, 39, 40, 20, 21, 22, 23, 24, 25, 7, 8, 9, 10, 11, 12, 13, 14, 39, 40, 41, 0, 1, 2, 3, 4, 29, 30, 31, 32, 33, 34, 35, 36, 19, 20, 21, 22, 23, 24, 25, 26, 9, 10, 11, 12, 13, 14, 15, 16, 41, 0, 1, 2, 3, 4, 5, 6, 31, 32, 33, 34, 35, 36, 37, 38, 21, 22, 23, 24, 25, 26, 27, 28, 11, 12, 13, 14, 15, 16, 17, 18, 41, 0, 1, 2, 3, 4])
  (by decide +kernel)

theorem logo_29 : LogoOk 29 := logoOk_of (g := ⟨29, 133, [6, 30, 54, 78, 102, 126], [(0, 4), (4, 2), (6, 1), (7, 1), (8, 1), (9, 19), (28, 5), (33, 19), (52, 5), (57, 19), (76, 5), (81, 19), (100, 5), (105, 17), (122, 2), (124, 1), (125, 4), (129, 4)]⟩) (k0 := 26) (cnt := 15) (p0 := 6512)
  (cws := [824, 825, 826, 827, 828, 829, 850, 851, 852, 853, 854, 877, 878, 879, 880, 881, 882, 883, 907, 908, 909, 910, 911, 912, 913, 914, 940, 941, 942, 943, 944, 945, 946, 947, 948, 973, 974, 975, 976, 977, 978, 979, 980, 1006, 1007, 1008, 1009, 1010, 1011, 1012, 1013, 1014, 1039, 1040, 1041, 1042, 1043, 1044, 1045, 1046, 1072, 1073, 1074, 1075, 1076, 1077, 1078, 1079, 1080, 1105, 1106, 1107, 1108, 1109, 1110, 1111, 1112, 1138, 1139, 1140, 1141, 1142, 1143, 1144, 1145, 1146, 1171, 1172, 1173, 1174, 1175, 1176, 1177, 1178, 1202, 1203, 1204, 1205, 1206, 1207, 1228, 1229, 1230, 1231, 1232, 1255, 1256, 1257, 1258, 1259, 1260])
  (bL := [12, 13, 0, 1, 2, 3, 10, 11, 12, 13, 0, 9, 10, 11, 12, 13, 0, 1, 11, 12, 13, 0, 1, 2, 3, 4, 2, 3, 4, 5, 6, 7, 8, 9, 10, 7, 8, 9, 10, 11, 12, 13, 0, 12, 13, 0, 1, 2, 3, 4, 5, 6, 3, 4, 5, 6, 7, 8, 9, 10, 8, 9, 10, 11, 12, 13, 0, 1, 2, 13, 0, 1, 2, 3, 4, 5, 6, 4, 5, 6, 7, 8, 9, 10, 11, 12, 9, 10, 11, 12, 13, 0, 1, 2, 12, 13, 0, 1, 2, 3, 10, 11, 12, 13, 0, 9, 10, 11, 12, 13, 0])
  (bM := [12, 13, 14, 15, 16, 17, 10, 11, 12, 13, 14, 9, 10, 11, 12, 13, 14, 15, 11, 12, 13, 14, 15, 16, 17, 18, 16, 17, 18, 19, 20, 21, 22, 23, 24, 21, 22, 23, 24, 25, 26, 27, 0, 26, 27, 0, 1, 2, 3, 4, 5, 6, 3, 4, 5, 6, 7, 8, 9, 10, 8, 9, 10, 11, 12, 13, 14, 15, 16, 13, 14, 15, 16, 17, 18, 19, 20, 18, 19, 20, 21, 22, 23, 24, 25, 26, 23, 24, 25, 26, 27, 0, 1, 2, 26, 27, 0, 1, 2, 3, 24, 25, 26, 27, 0, 23, 24, 25, 26, 27, 21])
  (bQ := [26, 27, 28, 29, 30, 31, 14, 15, 16, 17, 18, 4, 5, 6, 7, 8, 9, 10, 34, 35, 36, 37, 0, 1, 2, 3, 29, 30, 31, 32, 33, 34, 35, 36, 37, 24, 25, 26, 27, 28, 29, 30, 31, 19, 20, 21, 22, 23, 24, 25, 26, 27, 14, 15, 16, 17, 18, 19, 20, 21, 9, 10, 11, 12, 13, 14, 15, 16, 17, 4, 5, 6, 7, 8, 9, 10, 11, 37, 0, 1, 2, 3, 4, 5, 6, 7, 32, 33, 34, 35, 36, 37, 0, 1, 25, 26, 27, 28, 29, 30, 13, 14, 15, 16, 17, 2, 3, 4, 5, 6, 7])
  (bH := [33, 34, 35, 36, 37, 38, 14, 15, 16, 17, 18, 41, 42, 43, 44, 0, 1, 2, 26, 27, 28, 29, 30, 31, 32, 33, 14, 15, 16, 17, 18, 19, 20, 21, 22, 2, 3, 4, 5, 6, 7, 8, 9, 35, 36, 37, 38, 39, 40, 41, 42, 43, 23, 24, 25, 26, 27, 28, 29, 30, 11, 12, 13, 14, 15, 16, 17, 18, 19, 44, 0, 1, 2, 3, 4, 5, 6, 32, 33, 34, 35, 36, 37, 38, 39, 40, 20, 21, 22, 23, 24, 25, 26, 27, 6, 7, 8, 9, 10, 11, 32, 33, 34, 35, 36, 14, 15, 16, 17, 18, 19])
  (by decide +kernel)

theorem logo_30 : LogoOk 30 := logoOk_of (g := ⟨30, 137, [6, 26, 52, 78, 104, 130], [(0, 4), (4, 2), (6, 1), (7, 1), (8, 1), (9, 15), (24, 5), (29, 21), (50, 5), (55, 21), (76, 5), (81, 21), (102, 5), (107, 19), (126, 2), (128, 1), (129, 4), (133, 4)]⟩) (k0 := 27) (cnt := 15) (p0 := 6992)
  (cws := [887, 888, 889, 890, 891, 892, 893, 894, 919, 920, 921, 922, 923, 924, 944, 945, 946, 947, 948, 949, 950, 973, 974, 975, 976, 977, 978, 979, 980, 1005, 1006, 1007, 1008, 1009, 1010, 1011, 1012, 1039, 1040, 1041, 1042, 1043, 1044, 1045, 1046, 1073, 1074, 1075, 1076, 1077, 1078, 1079, 1080, 1107, 1108, 1109, 1110, 1111, 1112, 1113, 1114, 1141, 1142, 1143, 1144, 1145, 1146, 1147, 1148, 1175, 1176, 1177, 1178, 1179, 1180, 1181, 1182, 1209, 1210, 1211, 1212, 1213, 1214, 1215, 1216, 1243, 1244, 1245, 1246, 1247, 1248, 1249, 1250, 1277, 1278, 1279, 1280, 1281, 1282, 1283, 1284, 1311, 1312, 1313, 1314, 1315, 1316, 1317, 1318, 1341, 1342, 1343, 1344, 1345, 1346, 1347])
  (bL := [2, 3, 4, 5, 6, 7, 8, 9, 4, 5, 6, 7, 8, 9, 14, 0, 1, 2, 3, 4, 5, 13, 14, 0, 1, 2, 3, 4, 5, 0, 1, 2, 3, 4, 5, 6, 7, 4, 5, 6, 7, 8, 9, 10, 11, 8, 9, 10, 11, 12, 13, 14, 0, 12, 13, 14, 0, 1, 2, 3, 4, 1, 2, 3, 4, 5, 6, 7, 8, 5, 6, 7, 8, 9, 10, 11, 12, 9, 10, 11, 12, 13, 14, 0, 1, 13, 14, 0, 1, 2, 3, 4, 5, 2, 3, 4, 5, 6, 7, 8, 9, 6, 7, 8, 9, 10, 11, 12, 13, 6, 7, 8, 9, 10, 11, 12])
  (bM := [17, 18, 19, 20, 21, 22, 23, 24, 20, 21, 22, 23, 24, 25, 16, 17, 18, 19, 20, 21, 22, 16, 17, 18, 19, 20, 21, 22, 23, 19, 20, 21, 22, 23, 24, 25, 26, 24, 25, 26, 27, 28, 0, 1, 2, 0, 1, 2, 3, 4, 5, 6, 7, 5, 6, 7, 8, 9, 10, 11, 12, 10, 11, 12, 13, 14, 15, 16, 17, 15, 16, 17, 18, 19, 20, 21, 22, 20, 21, 22, 23, 24, 25, 26, 27, 25, 26, 27, 28, 0, 1, 2, 3, 1, 2, 3, 4, 5, 6, 7, 8, 6, 7, 8, 9, 10, 11, 12, 13, 7, 8, 9, 10, 11, 12, 13])
  (bQ := [7, 8, 9, 10, 11, 12, 13, 14, 39, 0, 1, 2, 3, 4, 24, 25, 26, 27, 28, 29, 30, 28, 29, 30, 31, 32, 33, 34, 35, 20, 21, 22, 23, 24, 25, 26, 27, 14, 15, 16, 17, 18, 19, 20, 21, 8, 9, 10, 11, 12, 13, 14, 15, 2, 3, 4, 5, 6, 7, 8, 9, 36, 37, 38, 39, 0, 1, 2, 3, 30, 31, 32, 33, 34, 35, 36, 37, 24, 25, 26, 27, 28, 29, 30, 31, 18, 19, 20, 21, 22, 23, 24, 25, 12, 13, 14, 15, 16, 17, 18, 19, 6, 7, 8, 9, 10, 11, 12, 13, 36, 37, 38, 39, 0, 1, 2])
  (bH := [46, 47, 0, 1, 2, 3, 4, 5, 30, 31, 32, 33, 34, 35, 7, 8, 9, 10, 11, 12, 13, 36, 37, 38, 39, 40, 41, 42, 43, 20, 21, 22, 23, 24, 25, 26, 27, 6, 7, 8, 9, 10, 11, 12, 13, 40, 41, 42, 43, 44, 45, 46, 47, 26, 27, 28, 29, 30, 31, 32, 33, 12, 13, 14, 15, 16, 17, 18, 19, 46, 47, 0, 1, 2, 3, 4, 5, 32, 33, 34, 35, 36, 37, 38, 39, 18, 19, 20, 21, 22, 23, 24, 25, 4, 5, 6, 7, 8, 9, 10, 11, 38, 39, 40, 41, 42, 43, 44, 45, 20, 21, 22, 23, 24, 25, 26])
  (by decide +kernel)

theorem logo_31 : LogoOk 31 := logoOk_of (g := ⟨31, 141, [6, 30, 56, 82, 108, 134], [(0, 4), (4, 2), (6, 1), (7, 1), (8, 1), (9, 19), (28, 5), (33, 21), (54, 5), (59, 21), (80, 5), (85, 21), (106, 5), (111, 19), (130, 2), (132, 1), (133, 4), (137, 4)]⟩) (k0 := 28) (cnt := 15) (p0 := 7488)
  (cws := [947, 948, 949, 950, 951, 952, 974, 975, 976, 977, 978, 979, 1004, 1005, 1006, 1007, 1008, 1009, 1010, 1036, 1037, 1038, 1039, 1040, 1041, 1042, 1043, 1071, 1072, 1073, 1074, 1075, 1076, 1077, 1078, 1079, 1106, 1107, 1108, 1109, 1110, 1111, 1112, 1113, 1141, 1142, 1143, 1144, 1145, 1146, 1147, 1148, 1149, 1176, 1177, 1178, 1179, 1180, 1181, 1182, 1183, 1211, 1212, 1213, 1214, 1215, 1216, 1217, 1218, 1219, 1246, 1247, 1248, 1249, 1250, 1251, 1252, 1253, 1281, 1282, 1283, 1284, 1285, 1286, 1287, 1288, 1289, 1316, 1317, 1318, 1319, 1320, 1321, 1322, 1323, 1351, 1352, 1353, 1354, 1355, 1356, 1357, 1358, 1359, 1383, 1384, 1385, 1386, 1387, 1388, 1389, 1412, 1413, 1414, 1415, 1416, 1417])
  (bL := [3, 4, 5, 6, 7, 8, 14, 15, 0, 1, 2, 3, 12, 13, 14, 15, 0, 1, 2, 12, 13, 14, 15, 0, 1, 2, 3, 15, 0, 1, 2, 3, 4, 5, 6, 7, 2, 3, 4, 5, 6, 7, 8, 9, 5, 6, 7, 8, 9, 10, 11, 12, 13, 8, 9, 10, 11, 12, 13, 14, 15, 11, 12, 13, 14, 15, 0, 1, 2, 3, 14, 15, 0, 1, 2, 3, 4, 5, 1, 2, 3, 4, 5, 6, 7, 8, 9, 4, 5, 6, 7, 8, 9, 10, 11, 7, 8, 9, 10, 11, 12, 13, 14, 15, 7, 8, 9, 10, 11, 12, 13, 4, 5, 6, 7, 8, 9])
  (bM := [17, 18, 19, 20, 21, 22, 13, 14, 15, 16, 17, 18, 12, 13, 14, 15, 16, 17, 18, 13, 14, 15, 16, 17, 18, 19, 20, 17, 18, 19, 20, 21, 22, 23, 24, 25, 21, 22, 23, 24, 25, 26, 27, 28, 25, 26, 27, 28, 29, 30, 0, 1, 2, 29, 30, 0, 1, 2, 3, 4, 5, 2, 3, 4, 5, 6, 7, 8, 9, 10, 6, 7, 8, 9, 10, 11, 12, 13, 10, 11, 12, 13, 14, 15, 16, 17, 18, 14, 15, 16, 17, 18, 19, 20, 21, 18, 19, 20, 21, 22, 23, 24, 25, 26, 19, 20, 21, 22, 23, 24, 25, 17, 18, 19, 20, 21, 22])
  (bQ := [1, 2, 3, 4, 5, 6, 28, 29, 30, 31, 32, 33, 15, 16, 17, 18, 19, 20, 21, 3, 4, 5, 6, 7, 8, 9, 10, 38, 39, 40, 41, 42, 0, 1, 2, 3, 30, 31, 32, 33, 34, 35, 36, 37, 22, 23, 24, 25, 26, 27, 28, 29, 30, 14, 15, 16, 17, 18, 19, 20, 21, 6, 7, 8, 9, 10, 11, 12, 13, 14, 41, 42, 0, 1, 2, 3, 4, 5, 33, 34, 35, 36, 37, 38, 39, 40, 41, 25, 26, 27, 28, 29, 30, 31, 32, 17, 18, 19, 20, 21, 22, 23, 24, 25, 6, 7, 8, 9, 10, 11, 12, 35, 36, 37, 38, 39, 40])
  (bH := [1, 2, 3, 4, 5, 6, 28, 29, 30, 31, 32, 33, 7, 8, 9, 10, 11, 12, 13, 39, 40, 41, 42, 43, 44, 45, 46, 23, 24, 25, 26, 27, 28, 29, 30, 31, 7, 8, 9, 10, 11, 12, 13, 14, 42, 43, 44, 45, 46, 47, 48, 49, 50, 26, 27, 28, 29, 30, 31, 32, 33, 10, 11, 12, 13, 14, 15, 16, 17, 18, 45, 46, 47, 48, 49, 50, 0, 1, 29, 30, 31, 32, 33, 34, 35, 36, 37, 13, 14, 15, 16, 17, 18, 19, 20, 48, 49, 50, 0, 1, 2, 3, 4, 5, 29, 30, 31, 32, 33, 34, 35, 7, 8, 9, 10, 11, 12])
  (by decide +kernel)

theorem logo_32 : LogoOk 32 := logoOk_of (g := ⟨32, 145, [6, 34, 60, 86, 112, 138], [(0, 4), (4, 2), (6, 1), (7, 1), (8, 1), (9, 23), (32, 5), (37, 21), (58, 5), (63, 21), (84, 5), (89, 21), (110, 5), (115, 19), (134, 2), (136, 1), (137, 4), (141, 4)]⟩) (k0 := 28) (cnt := 16) (p0 := 7712)
  (cws := [975, 976, 977, 978, 979, 980, 1004, 1005, 1006, 1007, 1008, 1009, 1034, 1035, 1036, 1037, 1038, 1039, 1040, 1067, 1068, 1069, 1070, 1071, 1072, 1073, 1074, 1075, 1104, 1105, 1106, 1107, 1108, 1109, 1110, 1111, 1139, 1140, 1141, 1142, 1143, 1144, 1145, 1146, 1147, 1176, 1177, 1178, 1179, 1180, 1181, 1182, 1183, 1211, 1212, 1213, 1214, 1215, 1216, 1217, 1218, 1219, 1248, 1249, 1250, 1251, 1252, 1253, 1254, 1255, 1283, 1284, 1285, 1286, 1287, 1288, 1289, 1290, 1291, 1320, 1321, 1322, 1323, 1324, 1325, 1326, 1327, 1355, 1356, 1357, 1358, 1359, 1360, 1361, 1362, 1363, 1392, 1393, 1394, 1395, 1396, 1397, 1398, 1399, 1425, 1426, 1427, 1428, 1429, 1430, 1431, 1454, 1455, 1456, 1457, 1458, 1459, 1484, 1485, 1486, 1487, 1488, 1489, 1490])
  (bL := [6, 7, 8, 9, 10, 11, 1, 2, 3, 4, 5, 6, 14, 15, 16, 0, 1, 2, 3, 13, 14, 15, 16, 0, 1, 2, 3, 4, 16, 0, 1, 2, 3, 4, 5, 6, 0, 1, 2, 3, 4, 5, 6, 7, 8, 3, 4, 5, 6, 7, 8, 9, 10, 4, 5, 6, 7, 8, 9, 10, 11, 12, 7, 8, 9, 10, 11, 12, 13, 14, 8, 9, 10, 11, 12, 13, 14, 15, 16, 11, 12, 13, 14, 15, 16, 0, 1, 12, 13, 14, 15, 16, 0, 1, 2, 3, 15, 16, 0, 1, 2, 3, 4, 5, 14, 15, 16, 0, 1, 2, 3, 9, 10, 11, 12, 13, 14, 5, 6, 7, 8, 9, 10, 11])
  (bM := [18, 19, 20, 21, 22, 23, 14, 15, 16, 17, 18, 19, 11, 12, 13, 14, 15, 16, 17, 11, 12, 13, 14, 15, 16, 17, 18, 19, 15, 16, 17, 18, 19, 20, 21, 22, 17, 18, 19, 20, 21, 22, 23, 24, 25, 21, 22, 23, 24, 25, 26, 27, 28, 23, 24, 25, 26, 27, 28, 29, 30, 31, 27, 28, 29, 30, 31, 32, 0, 1, 29, 30, 31, 32, 0, 1, 2, 3, 4, 0, 1, 2, 3, 4, 5, 6, 7, 2, 3, 4, 5, 6, 7, 8, 9, 10, 6, 7, 8, 9, 10, 11, 12, 13, 6, 7, 8, 9, 10, 11, 12, 2, 3, 4, 5, 6, 7, 32, 0, 1, 2, 3, 4, 5])
  (bQ := [30, 31, 32, 33, 34, 35, 14, 15, 16, 17, 18, 19, 44, 0, 1, 2, 3, 4, 5, 32, 33, 34, 35, 36, 37, 38, 39, 40, 34, 35, 36, 37, 38, 39, 40, 41, 24, 25, 26, 27, 28, 29, 30, 31, 32, 16, 17, 18, 19, 20, 21, 22, 23, 6, 7, 8, 9, 10, 11, 12, 13, 14, 43, 44, 0, 1, 2, 3, 4, 5, 33, 34, 35, 36, 37, 38, 39, 40, 41, 25, 26, 27, 28, 29, 30, 31, 32, 15, 16, 17, 18, 19, 20, 21, 22, 23, 7, 8, 9, 10, 11, 12, 13, 14, 40, 41, 42, 43, 44, 0, 1, 24, 25, 26, 27, 28, 29, 9, 10, 11, 12, 13, 14, 15])
  (bH := [22, 23, 24, 25, 26, 27, 51, 52, 53, 0, 1, 2, 27, 28, 29, 30, 31, 32, 33, 6, 7, 8, 9, 10, 11, 12, 13, 14, 43, 44, 45, 46, 47, 48, 49, 50, 24, 25, 26, 27, 28, 29, 30, 31, 32, 7, 8, 9, 10, 11, 12, 13, 14, 42, 43, 44, 45, 46, 47, 48, 49, 50, 25, 26, 27, 28, 29, 30, 31, 32, 6, 7, 8, 9, 10, 11, 12, 13, 14, 43, 44, 45, 46, 47, 48, 49, 50, 24, 25, 26, 27, 28, 29, 30, 31, 32, 7, 8, 9, 10, 11, 12, 13, 14, 40, 41, 42, 43, 44, 45, 46, 15, 16, 17, 18, 19, 20, 45, 46, 47, 48, 49, 50, 51])
  (by decide +kernel)

theorem logo_33 : LogoOk 33 := logoOk_of (g := ⟨33, 149, [6, 30, 58, 86, 114, 142], [(0, 4), (4, 2), (6, 1), (7, 1), (8, 1), (9, 19), (28, 5), (33, 23), (56, 5), (61, 23), (84, 5), (89, 23), (112, 5), (117, 21), (138, 2), (140, 1), (141, 4), (145, 4)]⟩) (k0 := 29) (cnt := 16) (p0 := 8232)
  (cws := [1043, 1044, 1045, 1046, 1047, 1048, 1049, 1050, 1051, 1078, 1079, 1080, 1081, 1082, 1083, 1084, 1107, 1108, 1109, 1110, 1111, 1112, 1113, 1139, 1140, 1141, 1142, 1143, 1144, 1145, 1173, 1174, 1175, 1176, 1177, 1178, 1179, 1180, 1181, 1210, 1211, 1212, 1213, 1214, 1215, 1216, 1217, 1218, 1247, 1248, 1249, 1250, 1251, 1252, 1253, 1254, 1255, 1284, 1285, 1286, 1287, 1288, 1289, 1290, 1291, 1292, 1321, 1322, 1323, 1324, 1325, 1326, 1327, 1328, 1329, 1358, 1359, 1360, 1361, 1362, 1363, 1364, 1365, 1366, 1395, 1396, 1397, 1398, 1399, 1400, 1401, 1402, 1403, 1432, 1433, 1434, 1435, 1436, 1437, 1438, 1439, 1440, 1469, 1470, 1471, 1472, 1473, 1474, 1475, 1476, 1477, 1506, 1507, 1508, 1509, 1510, 1511, 1512, 1513, 1514, 1543, 1544, 1545, 1546, 1547, 1548, 1549, 1550, 1551, 1578, 1579, 1580, 1581, 1582, 1583, 1584])
  (bL := [17, 0, 1, 2, 3, 4, 5, 6, 7, 16, 17, 0, 1, 2, 3, 4, 9, 10, 11, 12, 13, 14, 15, 5, 6, 7, 8, 9, 10, 11, 3, 4, 5, 6, 7, 8, 9, 10, 11, 4, 5, 6, 7, 8, 9, 10, 11, 12, 5, 6, 7, 8, 9, 10, 11, 12, 13, 6, 7, 8, 9, 10, 11, 12, 13, 14, 7, 8, 9, 10, 11, 12, 13, 14, 15, 8, 9, 10, 11, 12, 13, 14, 15, 16, 9, 10, 11, 12, 13, 14, 15, 16, 17, 10, 11, 12, 13, 14, 15, 16, 17, 0, 11, 12, 13, 14, 15, 16, 17, 0, 1, 12, 13, 14, 15, 16, 17, 0, 1, 2, 13, 14, 15, 16, 17, 0, 1, 2, 3, 12, 13, 14, 15, 16, 17, 0])
  (bM := [28, 29, 30, 31, 32, 33, 34, 0, 1, 28, 29, 30, 31, 32, 33, 34, 22, 23, 24, 25, 26, 27, 28, 19, 20, 21, 22, 23, 24, 25, 18, 19, 20, 21, 22, 23, 24, 25, 26, 20, 21, 22, 23, 24, 25, 26, 27, 28, 22, 23, 24, 25, 26, 27, 28, 29, 30, 24, 25, 26, 27, 28, 29, 30, 31, 32, 26, 27, 28, 29, 30, 31, 32, 33, 34, 28, 29, 30, 31, 32, 33, 34, 0, 1, 30, 31, 32, 33, 34, 0, 1, 2, 3, 32, 33, 34, 0, 1, 2, 3, 4, 5, 34, 0, 1, 2, 3, 4, 5, 6, 7, 1, 2, 3, 4, 5, 6, 7, 8, 9, 3, 4, 5, 6, 7, 8, 9, 10, 11, 3, 4, 5, 6, 7, 8, 9])
  (bQ := [35, 36, 37, 38, 39, 40, 41, 42, 43, 22, 23, 24, 25, 26, 27, 28, 3, 4, 5, 6, 7, 8, 9, 35, 36, 37, 38, 39, 40, 41, 2, 3, 4, 5, 6, 7, 8, 9, 10, 39, 40, 41, 42, 43, 44, 45, 46, 47, 28, 29, 30, 31, 32, 33, 34, 35, 36, 17, 18, 19, 20, 21, 22, 23, 24, 25, 6, 7, 8, 9, 10, 11, 12, 13, 14, 43, 44, 45, 46, 47, 0, 1, 2, 3, 32, 33, 34, 35, 36, 37, 38, 39, 40, 21, 22, 23, 24, 25, 26, 27, 28, 29, 10, 11, 12, 13, 14, 15, 16, 17, 18, 47, 0, 1, 2, 3, 4, 5, 6, 7, 36, 37, 38, 39, 40, 41, 42, 43, 44, 23, 24, 25, 26, 27, 28, 29])
  (bH := [28, 29, 30, 31, 32, 33, 34, 35, 36, 6, 7, 8, 9, 10, 11, 12, 35, 36, 37, 38, 39, 40, 41, 10, 11, 12, 13, 14, 15, 16, 44, 45, 46, 47, 48, 49, 50, 51, 52, 24, 25, 26, 27, 28, 29, 30, 31, 32, 4, 5, 6, 7, 8, 9, 10, 11, 12, 41, 42, 43, 44, 45, 46, 47, 48, 49, 21, 22, 23, 24, 25, 26, 27, 28, 29, 1, 2, 3, 4, 5, 6, 7, 8, 9, 38, 39, 40, 41, 42, 43, 44, 45, 46, 18, 19, 20, 21, 22, 23, 24, 25, 26, 55, 56, 0, 1, 2, 3, 4, 5, 6, 35, 36, 37, 38, 39, 40, 41, 42, 43, 15, 16, 17, 18, 19, 20, 21, 22, 23, 50, 51, 52, 53, 54, 55, 56])
  (by decide +kernel)

theorem logo_34 : LogoOk 34 := logoOk_of (g := ⟨34, 153, [6, 34, 62, 90, 118, 146], [(0, 4), (4, 2), (6, 1), (7, 1), (8, 1), (9, 23), (32, 5), (37, 23), (60, 5), (65, 23), (88, 5), (93, 23), (116, 5), (121, 21), (142, 2), (144, 1), (145, 4), (149, 4)]⟩) (k0 := 30) (cnt := 17) (p0 := 8768)
  (cws := [1108, 1109, 1110, 1111, 1112, 1113, 1114, 1139, 1140, 1141, 1142, 1143, 1144, 1171, 1172, 1173, 1174, 1175, 1176, 1177, 1178, 1206, 1207, 1208, 1209, 1210, 1211, 1212, 1213, 1214, 1244, 1245, 1246, 1247, 1248, 1249, 1250, 1251, 1252, 1253, 1282, 1283, 1284, 1285, 1286, 1287, 1288, 1289, 1290, 1320, 1321, 1322, 1323, 1324, 1325, 1326, 1327, 1328, 1329, 1358, 1359, 1360, 1361, 1362, 1363, 1364, 1365, 1366, 1396, 1397, 1398, 1399, 1400, 1401, 1402, 1403, 1404, 1405, 1434, 1435, 1436, 1437, 1438, 1439, 1440, 1441, 1442, 1472, 1473, 1474, 1475, 1476, 1477, 1478, 1479, 1480, 1481, 1510, 1511, 1512, 1513, 1514, 1515, 1516, 1517, 1518, 1548, 1549, 1550, 1551, 1552, 1553, 1554, 1555, 1556, 1557, 1586, 1587, 1588, 1589, 1590, 1591, 1592, 1593, 1594, 1622, 1623, 1624, 1625, 1626, 1627, 1628, 1653, 1654, 1655, 1656, 1657, 1658, 1685, 1686, 1687, 1688, 1689, 1690, 1691])
  (bL := [6, 7, 8, 9, 10, 11, 12, 18, 0, 1, 2, 3, 4, 12, 13, 14, 15, 16, 17, 18, 0, 9, 10, 11, 12, 13, 14, 15, 16, 17, 9, 10, 11, 12, 13, 14, 15, 16, 17, 18, 9, 10, 11, 12, 13, 14, 15, 16, 17, 9, 10, 11, 12, 13, 14, 15, 16, 17, 18, 9, 10, 11, 12, 13, 14, 15, 16, 17, 9, 10, 11, 12, 13, 14, 15, 16, 17, 18, 9, 10, 11, 12, 13, 14, 15, 16, 17, 9, 10, 11, 12, 13, 14, 15, 16, 17, 18, 9, 10, 11, 12, 13, 14, 15, 16, 17, 9, 10, 11, 12, 13, 14, 15, 16, 17, 18, 9, 10, 11, 12, 13, 14, 15, 16, 17, 7, 8, 9, 10, 11, 12, 13, 0, 1, 2, 3, 4, 5, 13, 14, 15, 16, 17, 18, 0])
  (bM := [35, 36, 0, 1, 2, 3, 4, 29, 30, 31, 32, 33, 34, 24, 25, 26, 27, 28, 29, 30, 31, 22, 23, 24, 25, 26, 27, 28, 29, 30, 23, 24, 25, 26, 27, 28, 29, 30, 31, 32, 24, 25, 26, 27, 28, 29, 30, 31, 32, 25, 26, 27, 28, 29, 30, 31, 32, 33, 34, 26, 27, 28, 29, 30, 31, 32, 33, 34, 27, 28, 29, 30, 31, 32, 33, 34, 35, 36, 28, 29, 30, 31, 32, 33, 34, 35, 36, 29, 30, 31, 32, 33, 34, 35, 36, 0, 1, 30, 31, 32, 33, 34, 35, 36, 0, 1, 31, 32, 33, 34, 35, 36, 0, 1, 2, 3, 32, 33, 34, 35, 36, 0, 1, 2, 3, 31, 32, 33, 34, 35, 36, 0, 25, 26, 27, 28, 29, 30, 20, 21, 22, 23, 24, 25, 26])
  (bQ := [37, 38, 39, 40, 41, 42, 43, 17, 18, 19, 20, 21, 22, 49, 50, 0, 1, 2, 3, 4, 5, 33, 34, 35, 36, 37, 38, 39, 40, 41, 13, 14, 15, 16, 17, 18, 19, 20, 21, 22, 0, 1, 2, 3, 4, 5, 6, 7, 8, 38, 39, 40, 41, 42, 43, 44, 45, 46, 47, 25, 26, 27, 28, 29, 30, 31, 32, 33, 12, 13, 14, 15, 16, 17, 18, 19, 20, 21, 50, 0, 1, 2, 3, 4, 5, 6, 7, 37, 38, 39, 40, 41, 42, 43, 44, 45, 46, 24, 25, 26, 27, 28, 29, 30, 31, 32, 11, 12, 13, 14, 15, 16, 17, 18, 19, 20, 49, 50, 0, 1, 2, 3, 4, 5, 6, 34, 35, 36, 37, 38, 39, 40, 14, 15, 16, 17, 18, 19, 46, 47, 48, 49, 50, 0, 1])
  (bH := [27, 28, 29, 30, 31, 32, 33, 58, 59, 0, 1, 2, 3, 30, 31, 32, 33, 34, 35, 36, 37, 5, 6, 7, 8, 9, 10, 11, 12, 13, 43, 44, 45, 46, 47, 48, 49, 50, 51, 52, 21, 22, 23, 24, 25, 26, 27, 28, 29, 59, 0, 1, 2, 3, 4, 5, 6, 7, 8, 37, 38, 39, 40, 41, 42, 43, 44, 45, 15, 16, 17, 18, 19, 20, 21, 22, 23, 24, 53, 54, 55, 56, 57, 58, 59, 0, 1, 31, 32, 33, 34, 35, 36, 37, 38, 39, 40, 9, 10, 11, 12, 13, 14, 15, 16, 17, 47, 48, 49, 50, 51, 52, 53, 54, 55, 56, 25, 26, 27, 28, 29, 30, 31, 32, 33, 1, 2, 3, 4, 5, 6, 7, 32, 33, 34, 35, 36, 37, 4, 5, 6, 7, 8, 9, 10])
  (by decide +kernel)

theorem logo_35 : LogoOk 35 := logoOk_of (g := ⟨35, 157, [6, 30, 54, 78, 102, 126, 150], [(0, 4), (4, 2), (6, 1), (7, 1), (8, 1), (9, 19), (28, 5), (33, 19), (52, 5), (57, 19), (76, 5), (81, 19), (100, 5), (105, 19), (124, 5), (129, 17), (146, 2), (148, 1), (149, 4), (153, 4)]⟩) (k0 := 31) (cnt := 17) (p0 := 9100)
  (cws := [1152, 1153, 1154, 1155, 1156, 1157, 1158, 1159, 1160, 1192, 1193, 1194, 1195, 1196, 1197, 1198, 1199, 1200, 1230, 1231, 1232, 1233, 1234, 1235, 1236, 1237, 1238, 1270, 1271, 1272, 1273, 1274, 1275, 1276, 1277, 1278, 1308, 1309, 1310, 1311, 1312, 1313, 1314, 1315, 1316, 1348, 1349, 1350, 1351, 1352, 1353, 1354, 1355, 1356, 1386, 1387, 1388, 1389, 1390, 1391, 1392, 1393, 1394, 1422, 1423, 1424, 1425, 1426, 1427, 1428, 1429, 1452, 1453, 1454, 1455, 1456, 1457, 1458, 1459, 1485, 1486, 1487, 1488, 1489, 1490, 1491, 1492, 1521, 1522, 1523, 1524, 1525, 1526, 1527, 1528, 1529, 1560, 1561, 1562, 1563, 1564, 1565, 1566, 1567, 1568, 1599, 1600, 1601, 1602, 1603, 1604, 1605, 1606, 1607, 1638, 1639, 1640, 1641, 1642, 1643, 1644, 1645, 1646, 1677, 1678, 1679, 1680, 1681, 1682, 1683, 1684, 1685, 1716, 1717, 1718, 1719, 1720, 1721, 1722, 1723, 1724, 1755, 1756, 1757, 1758, 1759, 1760, 1761, 1762, 1763])
  (bL := [12, 13, 14, 15, 16, 17, 18, 0, 1, 14, 15, 16, 17, 18, 0, 1, 2, 3, 14, 15, 16, 17, 18, 0, 1, 2, 3, 16, 17, 18, 0, 1, 2, 3, 4, 5, 16, 17, 18, 0, 1, 2, 3, 4, 5, 18, 0, 1, 2, 3, 4, 5, 6, 7, 18, 0, 1, 2, 3, 4, 5, 6, 7, 16, 17, 18, 0, 1, 2, 3, 4, 8, 9, 10, 11, 12, 13, 14, 15, 3, 4, 5, 6, 7, 8, 9, 10, 1, 2, 3, 4, 5, 6, 7, 8, 9, 2, 3, 4, 5, 6, 7, 8, 9, 10, 3, 4, 5, 6, 7, 8, 9, 10, 11, 4, 5, 6, 7, 8, 9, 10, 11, 12, 5, 6, 7, 8, 9, 10, 11, 12, 13, 6, 7, 8, 9, 10, 11, 12, 13, 14, 7, 8, 9, 10, 11, 12, 13, 14, 15])
  (bM := [12, 13, 14, 15, 16, 17, 18, 19, 20, 14, 15, 16, 17, 18, 19, 20, 21, 22, 14, 15, 16, 17, 18, 19, 20, 21, 22, 16, 17, 18, 19, 20, 21, 22, 23, 24, 16, 17, 18, 19, 20, 21, 22, 23, 24, 18, 19, 20, 21, 22, 23, 24, 25, 26, 18, 19, 20, 21, 22, 23, 24, 25, 26, 16, 17, 18, 19, 20, 21, 22, 23, 8, 9, 10, 11, 12, 13, 14, 15, 3, 4, 5, 6, 7, 8, 9, 10, 1, 2, 3, 4, 5, 6, 7, 8, 9, 2, 3, 4, 5, 6, 7, 8, 9, 10, 3, 4, 5, 6, 7, 8, 9, 10, 11, 4, 5, 6, 7, 8, 9, 10, 11, 12, 5, 6, 7, 8, 9, 10, 11, 12, 13, 6, 7, 8, 9, 10, 11, 12, 13, 14, 7, 8, 9, 10, 11, 12, 13, 14, 15])
  (bQ := [39, 40, 41, 42, 43, 44, 45, 46, 47, 26, 27, 28, 29, 30, 31, 32, 33, 34, 11, 12, 13, 14, 15, 16, 17, 18, 19, 51, 52, 39, 40, 41, 42, 43, 44, 45, 22, 23, 24, 25, 26, 27, 28, 29, 30, 9, 10, 11, 12, 13, 14, 15, 16, 17, 47, 48, 49, 50, 51, 52, 0, 1, 2, 30, 31, 32, 33, 34, 35, 36, 37, 7, 8, 9, 10, 11, 12, 13, 14, 40, 41, 42, 43, 44, 45, 46, 47, 23, 24, 25, 26, 27, 28, 29, 30, 31, 9, 10, 11, 12, 13, 14, 15, 16, 17, 48, 49, 50, 51, 52, 0, 1, 2, 3, 34, 35, 36, 37, 38, 39, 40, 41, 42, 20, 21, 22, 23, 24, 25, 26, 27, 28, 6, 7, 8, 9, 10, 11, 12, 13, 14, 45, 46, 47, 48, 49, 50, 51, 52, 0])
  (bH := [40, 41, 42, 43, 44, 45, 46, 47, 48, 17, 18, 19, 20, 21, 22, 23, 24, 25, 55, 56, 57, 58, 59, 60, 61, 62, 0, 32, 33, 34, 35, 36, 37, 38, 39, 40, 7, 8, 9, 10, 11, 12, 13, 14, 15, 47, 48, 49, 50, 51, 52, 53, 54, 55, 22, 23, 24, 25, 26, 27, 28, 29, 30, 58, 59, 60, 61, 62, 0, 1, 2, 25, 26, 27, 28, 29, 30, 31, 32, 58, 59, 60, 61, 62, 0, 1, 2, 31, 32, 33, 34, 35, 36, 37, 38, 39, 7, 8, 9, 10, 11, 12, 13, 14, 15, 46, 47, 48, 49, 50, 51, 52, 53, 54, 22, 23, 24, 25, 26, 27, 28, 29, 30, 61, 62, 0, 1, 2, 3, 4, 5, 6, 37, 38, 39, 40, 41, 42, 43, 44, 45, 13, 14, 15, 16, 17, 18, 19, 20, 21])
  (by decide +kernel)

theorem logo_36 : LogoOk 36 := logoOk_of (g := ⟨36, 161, [6, 24, 50, 76, 102, 128, 154], [(0, 4), (4, 2), (6, 1), (7, 1), (8, 1), (9, 13), (22, 5), (27, 21), (48, 5), (53, 21), (74, 5), (79, 21), (100, 5), (105, 21), (126, 5), (131, 19), (150, 2), (152, 1), (153, 4), (157, 4)]⟩) (k0 := 32) (cnt := 17) (p0 := 9668)
  (cws := [1224, 1225, 1226, 1227, 1228, 1229, 1230, 1231, 1232, 1264, 1265, 1266, 1267, 1268, 1269, 1270, 1271, 1272, 1304, 1305, 1306, 1307, 1308, 1309, 1310, 1311, 1312, 1344, 1345, 1346, 1347, 1348, 1349, 1350, 1351, 1352, 1384, 1385, 1386, 1387, 1388, 1389, 1390, 1391, 1392, 1424, 1425, 1426, 1427, 1428, 1429, 1430, 1431, 1432, 1464, 1465, 1466, 1467, 1468, 1469, 1470, 1471, 1472, 1504, 1505, 1506, 1507, 1508, 1509, 1510, 1511, 1512, 1544, 1545, 1546, 1547, 1548, 1549, 1550, 1551, 1552, 1580, 1581, 1582, 1583, 1584, 1585, 1586, 1587, 1612, 1613, 1614, 1615, 1616, 1617, 1618, 1619, 1645, 1646, 1647, 1648, 1649, 1650, 1651, 1652, 1653, 1683, 1684, 1685, 1686, 1687, 1688, 1689, 1690, 1691, 1723, 1724, 1725, 1726, 1727, 1728, 1729, 1730, 1731, 1763, 1764, 1765, 1766, 1767, 1768, 1769, 1770, 1771, 1803, 1804, 1805, 1806, 1807, 1808, 1809, 1810, 1811, 1843, 1844, 1845, 1846, 1847, 1848, 1849, 1850, 1851])
  (bL := [4, 5, 6, 7, 8, 9, 10, 11, 12, 4, 5, 6, 7, 8, 9, 10, 11, 12, 4, 5, 6, 7, 8, 9, 10, 11, 12, 4, 5, 6, 7, 8, 9, 10, 11, 12, 4, 5, 6, 7, 8, 9, 10, 11, 12, 4, 5, 6, 7, 8, 9, 10, 11, 12, 4, 5, 6, 7, 8, 9, 10, 11, 12, 4, 5, 6, 7, 8, 9, 10, 11, 12, 4, 5, 6, 7, 8, 9, 10, 11, 12, 0, 1, 2, 3, 4, 5, 6, 7, 12, 13, 14, 15, 16, 17, 18, 19, 5, 6, 7, 8, 9, 10, 11, 12, 13, 3, 4, 5, 6, 7, 8, 9, 10, 11, 3, 4, 5, 6, 7, 8, 9, 10, 11, 3, 4, 5, 6, 7, 8, 9, 10, 11, 3, 4, 5, 6, 7, 8, 9, 10, 11, 3, 4, 5, 6, 7, 8, 9, 10, 11])
  (bM := [24, 25, 26, 27, 28, 29, 30, 31, 32, 24, 25, 26, 27, 28, 29, 30, 31, 32, 24, 25, 26, 27, 28, 29, 30, 31, 32, 24, 25, 26, 27, 28, 29, 30, 31, 32, 24, 25, 26, 27, 28, 29, 30, 31, 32, 24, 25, 26, 27, 28, 29, 30, 31, 32, 24, 25, 26, 27, 28, 29, 30, 31, 32, 24, 25, 26, 27, 28, 29, 30, 31, 32, 24, 25, 26, 27, 28, 29, 30, 31, 32, 20, 21, 22, 23, 24, 25, 26, 27, 12, 13, 14, 15, 16, 17, 18, 19, 5, 6, 7, 8, 9, 10, 11, 12, 13, 3, 4, 5, 6, 7, 8, 9, 10, 11, 3, 4, 5, 6, 7, 8, 9, 10, 11, 3, 4, 5, 6, 7, 8, 9, 10, 11, 3, 4, 5, 6, 7, 8, 9, 10, 11, 3, 4, 5, 6, 7, 8, 9, 10, 11])
  (bQ := [48, 49, 50, 51, 52, 53, 54, 55, 0, 32, 33, 34, 35, 36, 37, 38, 39, 40, 16, 17, 18, 19, 20, 21, 22, 23, 24, 46, 47, 48, 49, 50, 51, 52, 53, 54, 30, 31, 32, 33, 34, 35, 36, 37, 38, 14, 15, 16, 17, 18, 19, 20, 21, 22, 54, 55, 0, 1, 2, 3, 4, 5, 6, 38, 39, 40, 41, 42, 43, 44, 45, 46, 22, 23, 24, 25, 26, 27, 28, 29, 30, 2, 3, 4, 5, 6, 7, 8, 9, 34, 35, 36, 37, 38, 39, 40, 41, 11, 12, 13, 14, 15, 16, 17, 18, 19, 49, 50, 51, 52, 53, 54, 55, 0, 1, 33, 34, 35, 36, 37, 38, 39, 40, 41, 17, 18, 19, 20, 21, 22, 23, 24, 25, 1, 2, 3, 4, 5, 6, 7, 8, 9, 41, 42, 43, 44, 45, 46, 47, 48, 49])
  (bH := [38, 39, 40, 41, 42, 43, 44, 45, 46, 12, 13, 14, 15, 16, 17, 18, 19, 20, 52, 53, 54, 55, 56, 57, 58, 59, 60, 26, 27, 28, 29, 30, 31, 32, 33, 34, 0, 1, 2, 3, 4, 5, 6, 7, 8, 40, 41, 42, 43, 44, 45, 46, 47, 48, 14, 15, 16, 17, 18, 19, 20, 21, 22, 54, 55, 56, 57, 58, 59, 60, 61, 62, 28, 29, 30, 31, 32, 33, 34, 35, 36, 64, 65, 0, 1, 2, 3, 4, 5, 30, 31, 32, 33, 34, 35, 36, 37, 63, 64, 65, 0, 1, 2, 3, 4, 5, 35, 36, 37, 38, 39, 40, 41, 42, 43, 9, 10, 11, 12, 13, 14, 15, 16, 17, 49, 50, 51, 52, 53, 54, 55, 56, 57, 23, 24, 25, 26, 27, 28, 29, 30, 31, 63, 64, 65, 0, 1, 2, 3, 4, 5])
  (by decide +kernel)

theorem logo_37 : LogoOk 37 := logoOk_of (g := ⟨37, 165, [6, 28, 54, 80, 106, 132, 158], [(0, 4), (4, 2), (6, 1), (7, 1), (8, 1), (9, 17), (26, 5), (31, 21), (52, 5), (57, 21), (78, 5), (83, 21), (104, 5), (109, 21), (130, 5), (135, 19), (154, 2), (156, 1), (157, 4), (161, 4)]⟩) (k0 := 32) (cnt := 18) (p0 := 9924)
  (cws := [1256, 1257, 1258, 1259, 1260, 1261, 1262, 1263, 1264, 1265, 1297, 1298, 1299, 1300, 1301, 1302, 1303, 1304, 1305, 1306, 1338, 1339, 1340, 1341, 1342, 1343, 1344, 1345, 1346, 1347, 1379, 1380, 1381, 1382, 1383, 1384, 1385, 1386, 1387, 1388, 1420, 1421, 1422, 1423, 1424, 1425, 1426, 1427, 1428, 1429, 1461, 1462, 1463, 1464, 1465, 1466, 1467, 1468, 1469, 1470, 1502, 1503, 1504, 1505, 1506, 1507, 1508, 1509, 1510, 1511, 1543, 1544, 1545, 1546, 1547, 1548, 1549, 1550, 1551, 1552, 1584, 1585, 1586, 1587, 1588, 1589, 1590, 1591, 1592, 1593, 1622, 1623, 1624, 1625, 1626, 1627, 1628, 1629, 1654, 1655, 1656, 1657, 1658, 1659, 1660, 1661, 1688, 1689, 1690, 1691, 1692, 1693, 1694, 1695, 1696, 1727, 1728, 1729, 1730, 1731, 1732, 1733, 1734, 1735, 1736, 1768, 1769, 1770, 1771, 1772, 1773, 1774, 1775, 1776, 1809, 1810, 1811, 1812, 1813, 1814, 1815, 1816, 1817, 1818, 1850, 1851, 1852, 1853, 1854, 1855, 1856, 1857, 1858, 1891, 1892, 1893, 1894, 1895, 1896, 1897, 1898, 1899, 1900, 1932, 1933, 1934, 1935, 1936, 1937, 1938, 1939, 1940])
  (bL := [17, 18, 19, 20, 0, 1, 2, 3, 4, 5, 16, 17, 18, 19, 20, 0, 1, 2, 3, 4, 15, 16, 17, 18, 19, 20, 0, 1, 2, 3, 14, 15, 16, 17, 18, 19, 20, 0, 1, 2, 13, 14, 15, 16, 17, 18, 19, 20, 0, 1, 12, 13, 14, 15, 16, 17, 18, 19, 20, 0, 11, 12, 13, 14, 15, 16, 17, 18, 19, 20, 10, 11, 12, 13, 14, 15, 16, 17, 18, 19, 9, 10, 11, 12, 13, 14, 15, 16, 17, 18, 5, 6, 7, 8, 9, 10, 11, 12, 16, 17, 18, 19, 20, 0, 1, 2, 8, 9, 10, 11, 12, 13, 14, 15, 16, 5, 6, 7, 8, 9, 10, 11, 12, 13, 14, 4, 5, 6, 7, 8, 9, 10, 11, 12, 3, 4, 5, 6, 7, 8, 9, 10, 11, 12, 2, 3, 4, 5, 6, 7, 8, 9, 10, 1, 2, 3, 4, 5, 6, 7, 8, 9, 10, 0, 1, 2, 3, 4, 5, 6, 7, 8])
  (bM := [9, 10, 11, 12, 13, 14, 15, 16, 17, 18, 7, 8, 9, 10, 11, 12, 13, 14, 15, 16, 5, 6, 7, 8, 9, 10, 11, 12, 13, 14, 3, 4, 5, 6, 7, 8, 9, 10, 11, 12, 1, 2, 3, 4, 5, 6, 7, 8, 9, 10, 42, 0, 1, 2, 3, 4, 5, 6, 7, 8, 40, 41, 42, 0, 1, 2, 3, 4, 5, 6, 38, 39, 40, 41, 42, 0, 1, 2, 3, 4, 36, 37, 38, 39, 40, 41, 42, 0, 1, 2, 31, 32, 33, 34, 35, 36, 37, 38, 20, 21, 22, 23, 24, 25, 26, 27, 11, 12, 13, 14, 15, 16, 17, 18, 19, 7, 8, 9, 10, 11, 12, 13, 14, 15, 16, 5, 6, 7, 8, 9, 10, 11, 12, 13, 3, 4, 5, 6, 7, 8, 9, 10, 11, 12, 1, 2, 3, 4, 5, 6, 7, 8, 9, 42, 0, 1, 2, 3, 4, 5, 6, 7, 8, 40, 41, 42, 0, 1, 2, 3, 4, 5])
  (bQ := [17, 18, 19, 20, 21, 22, 23, 24, 25, 26, 58, 0, 1, 2, 3, 4, 5, 6, 7, 8, 40, 41, 42, 43, 44, 45, 46, 47, 48, 49, 22, 23, 24, 25, 26, 27, 28, 29, 30, 31, 53, 54, 55, 56, 57, 58, 0, 1, 2, 3, 35, 36, 37, 38, 39, 40, 41, 42, 43, 44, 17, 18, 19, 20, 21, 22, 23, 24, 25, 26, 58, 0, 1, 2, 3, 4, 5, 6, 7, 8, 40, 41, 42, 43, 44, 45, 46, 47, 48, 49, 19, 20, 21, 22, 23, 24, 25, 26, 51, 52, 53, 54, 55, 56, 57, 58, 26, 27, 28, 29, 30, 31, 32, 33, 34, 6, 7, 8, 9, 10, 11, 12, 13, 14, 15, 47, 48, 49, 50, 51, 52, 53, 54, 55, 29, 30, 31, 32, 33, 34, 35, 36, 37, 38, 11, 12, 13, 14, 15, 16, 17, 18, 19, 52, 53, 54, 55, 56, 57, 58, 0, 1, 2, 34, 35, 36, 37, 38, 39, 40, 41, 42])
  (bH := [20, 21, 22, 23, 24, 25, 26, 27, 28, 29, 61, 62, 63, 64, 65, 66, 67, 68, 69, 0, 32, 33, 34, 35, 36, 37, 38, 39, 40, 41, 3, 4, 5, 6, 7, 8, 9, 10, 11, 12, 44, 45, 46, 47, 48, 49, 50, 51, 52, 53, 15, 16, 17, 18, 19, 20, 21, 22, 23, 24, 56, 57, 58, 59, 60, 61, 62, 63, 64, 65, 27, 28, 29, 30, 31, 32, 33, 34, 35, 36, 68, 69, 0, 1, 2, 3, 4, 5, 6, 7, 36, 37, 38, 39, 40, 41, 42, 43, 68, 69, 0, 1, 2, 3, 4, 5, 32, 33, 34, 35, 36, 37, 38, 39, 40, 1, 2, 3, 4, 5, 6, 7, 8, 9, 10, 42, 43, 44, 45, 46, 47, 48, 49, 50, 13, 14, 15, 16, 17, 18, 19, 20, 21, 22, 54, 55, 56, 57, 58, 59, 60, 61, 62, 25, 26, 27, 28, 29, 30, 31, 32, 33, 34, 66, 67, 68, 69, 0, 1, 2, 3, 4])
  (by decide +kernel)

theorem logo_38 : LogoOk 38 := logoOk_of (g := ⟨38, 169, [6, 32, 58, 84, 110, 136, 162], [(0, 4), (4, 2), (6, 1), (7, 1), (8, 1), (9, 21), (30, 5), (35, 21), (56, 5), (61, 21), (82, 5), (87, 21), (108, 5), (113, 21), (134, 5), (139, 19), (158, 2), (160, 1), (161, 4), (165, 4)]⟩) (k0 := 33) (cnt := 18) (p0 := 10516)
  (cws := [1331, 1332, 1333, 1334, 1335, 1336, 1337, 1338, 1339, 1373, 1374, 1375, 1376, 1377, 1378, 1379, 1380, 1381, 1415, 1416, 1417, 1418, 1419, 1420, 1421, 1422, 1423, 1457, 1458, 1459, 1460, 1461, 1462, 1463, 1464, 1465, 1499, 1500, 1501, 1502, 1503, 1504, 1505, 1506, 1507, 1541, 1542, 1543, 1544, 1545, 1546, 1547, 1548, 1549, 1583, 1584, 1585, 1586, 1587, 1588, 1589, 1590, 1591, 1625, 1626, 1627, 1628, 1629, 1630, 1631, 1632, 1633, 1663, 1664, 1665, 1666, 1667, 1668, 1669, 1670, 1697, 1698, 1699, 1700, 1701, 1702, 1703, 1704, 1732, 1733, 1734, 1735, 1736, 1737, 1738, 1739, 1740, 1772, 1773, 1774, 1775, 1776, 1777, 1778, 1779, 1780, 1813, 1814, 1815, 1816, 1817, 1818, 1819, 1820, 1821, 1822, 1856, 1857, 1858, 1859, 1860, 1861, 1862, 1863, 1864, 1897, 1898, 1899, 1900, 1901, 1902, 1903, 1904, 1905, 1906, 1940, 1941, 1942, 1943, 1944, 1945, 1946, 1947, 1948, 1981, 1982, 1983, 1984, 1985, 1986, 1987, 1988, 1989, 1990, 2024, 2025, 2026, 2027, 2028, 2029, 2030, 2031, 2032])
  (bL := [11, 12, 13, 14, 15, 16, 17, 18, 19, 9, 10, 11, 12, 13, 14, 15, 16, 17, 7, 8, 9, 10, 11, 12, 13, 14, 15, 5, 6, 7, 8, 9, 10, 11, 12, 13, 3, 4, 5, 6, 7, 8, 9, 10, 11, 1, 2, 3, 4, 5, 6, 7, 8, 9, 21, 0, 1, 2, 3, 4, 5, 6, 7, 19, 20, 21, 0, 1, 2, 3, 4, 5, 13, 14, 15, 16, 17, 18, 19, 20, 3, 4, 5, 6, 7, 8, 9, 10, 16, 17, 18, 19, 20, 21, 0, 1, 2, 12, 13, 14, 15, 16, 17, 18, 19, 20, 9, 10, 11, 12, 13, 14, 15, 16, 17, 18, 8, 9, 10, 11, 12, 13, 14, 15, 16, 5, 6, 7, 8, 9, 10, 11, 12, 13, 14, 4, 5, 6, 7, 8, 9, 10, 11, 12, 1, 2, 3, 4, 5, 6, 7, 8, 9, 10, 0, 1, 2, 3, 4, 5, 6, 7, 8])
  (bM := [26, 27, 28, 29, 30, 31, 32, 33, 34, 23, 24, 25, 26, 27, 28, 29, 30, 31, 20, 21, 22, 23, 24, 25, 26, 27, 28, 17, 18, 19, 20, 21, 22, 23, 24, 25, 14, 15, 16, 17, 18, 19, 20, 21, 22, 11, 12, 13, 14, 15, 16, 17, 18, 19, 8, 9, 10, 11, 12, 13, 14, 15, 16, 5, 6, 7, 8, 9, 10, 11, 12, 13, 43, 44, 0, 1, 2, 3, 4, 5, 32, 33, 34, 35, 36, 37, 38, 39, 22, 23, 24, 25, 26, 27, 28, 29, 30, 17, 18, 19, 20, 21, 22, 23, 24, 25, 13, 14, 15, 16, 17, 18, 19, 20, 21, 22, 11, 12, 13, 14, 15, 16, 17, 18, 19, 7, 8, 9, 10, 11, 12, 13, 14, 15, 16, 5, 6, 7, 8, 9, 10, 11, 12, 13, 1, 2, 3, 4, 5, 6, 7, 8, 9, 10, 44, 0, 1, 2, 3, 4, 5, 6, 7])
  (bQ := [29, 30, 31, 32, 33, 34, 35, 36, 37, 9, 10, 11, 12, 13, 14, 15, 16, 17, 51, 52, 53, 54, 55, 56, 57, 58, 59, 31, 32, 33, 34, 35, 36, 37, 38, 39, 59, 60, 61, 0, 1, 2, 3, 4, 5, 39, 40, 41, 42, 43, 44, 45, 46, 47, 19, 20, 21, 22, 23, 24, 25, 26, 27, 61, 0, 1, 2, 3, 4, 5, 6, 7, 37, 38, 39, 40, 41, 42, 43, 44, 9, 10, 11, 12, 13, 14, 15, 16, 44, 45, 46, 47, 48, 49, 50, 51, 52, 22, 23, 24, 25, 26, 27, 28, 29, 30, 1, 2, 3, 4, 5, 6, 7, 8, 9, 10, 44, 45, 46, 47, 48, 49, 50, 51, 52, 23, 24, 25, 26, 27, 28, 29, 30, 31, 32, 4, 5, 6, 7, 8, 9, 10, 11, 12, 45, 46, 47, 48, 49, 50, 51, 52, 53, 54, 26, 27, 28, 29, 30, 31, 32, 33, 34])
  (bH := [41, 42, 43, 44, 45, 46, 47, 48, 49, 9, 10, 11, 12, 13, 14, 15, 16, 17, 51, 52, 53, 54, 55, 56, 57, 58, 59, 19, 20, 21, 22, 23, 24, 25, 26, 27, 61, 62, 63, 64, 65, 66, 67, 68, 69, 29, 30, 31, 32, 33, 34, 35, 36, 37, 71, 72, 73, 0, 1, 2, 3, 4, 5, 39, 40, 41, 42, 43, 44, 45, 46, 47, 3, 4, 5, 6, 7, 8, 9, 10, 37, 38, 39, 40, 41, 42, 43, 44, 72, 73, 0, 1, 2, 3, 4, 5, 6, 38, 39, 40, 41, 42, 43, 44, 45, 46, 5, 6, 7, 8, 9, 10, 11, 12, 13, 14, 48, 49, 50, 51, 52, 53, 54, 55, 56, 15, 16, 17, 18, 19, 20, 21, 22, 23, 24, 58, 59, 60, 61, 62, 63, 64, 65, 66, 25, 26, 27, 28, 29, 30, 31, 32, 33, 34, 68, 69, 70, 71, 72, 73, 0, 1, 2])
  (by decide +kernel)

theorem logo_39 : LogoOk 39 := logoOk_of (g := ⟨39, 173, [6, 26, 54, 82, 110, 138, 166], [(0, 4), (4, 2), (6, 1), (7, 1), (8, 1), (9, 15), (24, 5), (29, 23), (52, 5), (57, 23), (80, 5), (85, 23), (108, 5), (113, 23), (136, 5), (141, 21), (162, 2), (164, 1), (165, 4), (169, 4)]⟩) (k0 := 34) (cnt := 19) (p0 := 11124)
  (cws := [1407, 1408, 1409, 1410, 1411, 1412, 1413, 1414, 1415, 1416, 1450, 1451, 1452, 1453, 1454, 1455, 1456, 1457, 1458, 1459, 1493, 1494, 1495, 1496, 1497, 1498, 1499, 1500, 1501, 1502, 1536, 1537, 1538, 1539, 1540, 1541, 1542, 1543, 1544, 1545, 1579, 1580, 1581, 1582, 1583, 1584, 1585, 1586, 1587, 1588, 1622, 1623, 1624, 1625, 1626, 1627, 1628, 1629, 1630, 1631, 1665, 1666, 1667, 1668, 1669, 1670, 1671, 1672, 1673, 1674, 1708, 1709, 1710, 1711, 1712, 1713, 1714, 1715, 1716, 1717, 1751, 1752, 1753, 1754, 1755, 1756, 1757, 1758, 1759, 1760, 1794, 1795, 1796, 1797, 1798, 1799, 1800, 1801, 1802, 1803, 1833, 1834, 1835, 1836, 1837, 1838, 1839, 1840, 1841, 1868, 1869, 1870, 1871, 1872, 1873, 1874, 1875, 1876, 1904, 1905, 1906, 1907, 1908, 1909, 1910, 1911, 1912, 1913, 1945, 1946, 1947, 1948, 1949, 1950, 1951, 1952, 1953, 1954, 1988, 1989, 1990, 1991, 1992, 1993, 1994, 1995, 1996, 1997, 2031, 2032, 2033, 2034, 2035, 2036, 2037, 2038, 2039, 2040, 2074, 2075, 2076, 2077, 2078, 2079, 2080, 2081, 2082, 2083, 2117, 2118, 2119, 2120, 2121, 2122, 2123, 2124, 2125, 2126, 2160, 2161, 2162, 2163, 2164, 2165, 2166, 2167, 2168, 2169])
  (bL := [15, 16, 17, 18, 19, 20, 21, 22, 23, 0, 10, 11, 12, 13, 14, 15, 16, 17, 18, 19, 5, 6, 7, 8, 9, 10, 11, 12, 13, 14, 0, 1, 2, 3, 4, 5, 6, 7, 8, 9, 19, 20, 21, 22, 23, 0, 1, 2, 3, 4, 14, 15, 16, 17, 18, 19, 20, 21, 22, 23, 9, 10, 11, 12, 13, 14, 15, 16, 17, 18, 4, 5, 6, 7, 8, 9, 10, 11, 12, 13, 23, 0, 1, 2, 3, 4, 5, 6, 7, 8, 18, 19, 20, 21, 22, 23, 0, 1, 2, 3, 9, 10, 11, 12, 13, 14, 15, 16, 17, 20, 21, 22, 23, 0, 1, 2, 3, 4, 8, 9, 10, 11, 12, 13, 14, 15, 16, 17, 1, 2, 3, 4, 5, 6, 7, 8, 9, 10, 20, 21, 22, 23, 0, 1, 2, 3, 4, 5, 15, 16, 17, 18, 19, 20, 21, 22, 23, 0, 10, 11, 12, 13, 14, 15, 16, 17, 18, 19, 5, 6, 7, 8, 9, 10, 11, 12, 13, 14, 0, 1, 2, 3, 4, 5, 6, 7, 8, 9])
  (bM := [44, 45, 46, 0, 1, 2, 3, 4, 5, 6, 40, 41, 42, 43, 44, 45, 46, 0, 1, 2, 36, 37, 38, 39, 40, 41, 42, 43, 44, 45, 32, 33, 34, 35, 36, 37, 38, 39, 40, 41, 28, 29, 30, 31, 32, 33, 34, 35, 36, 37, 24, 25, 26, 27, 28, 29, 30, 31, 32, 33, 20, 21, 22, 23, 24, 25, 26, 27, 28, 29, 16, 17, 18, 19, 20, 21, 22, 23, 24, 25, 12, 13, 14, 15, 16, 17, 18, 19, 20, 21, 8, 9, 10, 11, 12, 13, 14, 15, 16, 17, 0, 1, 2, 3, 4, 5, 6, 7, 8, 35, 36, 37, 38, 39, 40, 41, 42, 43, 24, 25, 26, 27, 28, 29, 30, 31, 32, 33, 18, 19, 20, 21, 22, 23, 24, 25, 26, 27, 14, 15, 16, 17, 18, 19, 20, 21, 22, 23, 10, 11, 12, 13, 14, 15, 16, 17, 18, 19, 6, 7, 8, 9, 10, 11, 12, 13, 14, 15, 2, 3, 4, 5, 6, 7, 8, 9, 10, 11, 45, 46, 0, 1, 2, 3, 4, 5, 6, 7])
  (bQ := [42, 43, 44, 45, 46, 47, 48, 49, 50, 51, 20, 21, 22, 23, 24, 25, 26, 27, 28, 29, 63, 64, 0, 1, 2, 3, 4, 5, 6, 7, 41, 42, 43, 44, 45, 46, 47, 48, 49, 50, 62, 63, 64, 0, 1, 2, 3, 4, 5, 6, 40, 41, 42, 43, 44, 45, 46, 47, 48, 49, 18, 19, 20, 21, 22, 23, 24, 25, 26, 27, 61, 62, 63, 64, 0, 1, 2, 3, 4, 5, 39, 40, 41, 42, 43, 44, 45, 46, 47, 48, 17, 18, 19, 20, 21, 22, 23, 24, 25, 26, 56, 57, 58, 59, 60, 61, 62, 63, 64, 26, 27, 28, 29, 30, 31, 32, 33, 34, 62, 63, 64, 0, 1, 2, 3, 4, 5, 6, 38, 39, 40, 41, 42, 43, 44, 45, 46, 47, 16, 17, 18, 19, 20, 21, 22, 23, 24, 25, 59, 60, 61, 62, 63, 64, 0, 1, 2, 3, 37, 38, 39, 40, 41, 42, 43, 44, 45, 46, 15, 16, 17, 18, 19, 20, 21, 22, 23, 24, 58, 59, 60, 61, 62, 63, 64, 0, 1, 2])
  (bH := [31, 32, 33, 34, 35, 36, 37, 38, 39, 40, 74, 75, 76, 0, 1, 2, 3, 4, 5, 6, 40, 41, 42, 43, 44, 45, 46, 47, 48, 49, 6, 7, 8, 9, 10, 11, 12, 13, 14, 15, 49, 50, 51, 52, 53, 54, 55, 56, 57, 58, 15, 16, 17, 18, 19, 20, 21, 22, 23, 24, 58, 59, 60, 61, 62, 63, 64, 65, 66, 67, 24, 25, 26, 27, 28, 29, 30, 31, 32, 33, 67, 68, 69, 70, 71, 72, 73, 74, 75, 76, 33, 34, 35, 36, 37, 38, 39, 40, 41, 42, 72, 73, 74, 75, 76, 0, 1, 2, 3, 30, 31, 32, 33, 34, 35, 36, 37, 38, 66, 67, 68, 69, 70, 71, 72, 73, 74, 75, 30, 31, 32, 33, 34, 35, 36, 37, 38, 39, 73, 74, 75, 76, 0, 1, 2, 3, 4, 5, 39, 40, 41, 42, 43, 44, 45, 46, 47, 48, 5, 6, 7, 8, 9, 10, 11, 12, 13, 14, 48, 49, 50, 51, 52, 53, 54, 55, 56, 57, 14, 15, 16, 17, 18, 19, 20, 21, 22, 23])
  (by decide +kernel)

theorem logo_40 : LogoOk 40 := logoOk_of (g := ⟨40, 177, [6, 30, 58, 86, 114, 142, 170], [(0, 4), (4, 2), (6, 1), (7, 1), (8, 1), (9, 19), (28, 5), (33, 23), (56, 5), (61, 23), (84, 5), (89, 23), (112, 5), (117, 23), (140, 5), (145, 21), (166, 2), (168, 1), (169, 4), (173, 4)]⟩) (k0 := 35) (cnt := 19) (p0 := 11748)
  (cws := [1485, 1486, 1487, 1488, 1489, 1490, 1491, 1492, 1493, 1494, 1530, 1531, 1532, 1533, 1534, 1535, 1536, 1537, 1538, 1539, 1573, 1574, 1575, 1576, 1577, 1578, 1579, 1580, 1581, 1582, 1618, 1619, 1620, 1621, 1622, 1623, 1624, 1625, 1626, 1627, 1661, 1662, 1663, 1664, 1665, 1666, 1667, 1668, 1669, 1670, 1706, 1707, 1708, 1709, 1710, 1711, 1712, 1713, 1714, 1715, 1749, 1750, 1751, 1752, 1753, 1754, 1755, 1756, 1757, 1758, 1794, 1795, 1796, 1797, 1798, 1799, 1800, 1801, 1802, 1803, 1837, 1838, 1839, 1840, 1841, 1842, 1843, 1844, 1845, 1846, 1878, 1879, 1880, 1881, 1882, 1883, 1884, 1885, 1886, 1913, 1914, 1915, 1916, 1917, 1918, 1919, 1920, 1921, 1951, 1952, 1953, 1954, 1955, 1956, 1957, 1958, 1959, 1992, 1993, 1994, 1995, 1996, 1997, 1998, 1999, 2000, 2001, 2036, 2037, 2038, 2039, 2040, 2041, 2042, 2043, 2044, 2045, 2080, 2081, 2082, 2083, 2084, 2085, 2086, 2087, 2088, 2089, 2124, 2125, 2126, 2127, 2128, 2129, 2130, 2131, 2132, 2133, 2168, 2169, 2170, 2171, 2172, 2173, 2174, 2175, 2176, 2177, 2212, 2213, 2214, 2215, 2216, 2217, 2218, 2219, 2220, 2221, 2256, 2257, 2258, 2259, 2260, 2261, 2262, 2263, 2264, 2265])
  (bL := [10, 11, 12, 13, 14, 15, 16, 17, 18, 19, 5, 6, 7, 8, 9, 10, 11, 12, 13, 14, 23, 24, 0, 1, 2, 3, 4, 5, 6, 7, 18, 19, 20, 21, 22, 23, 24, 0, 1, 2, 11, 12, 13, 14, 15, 16, 17, 18, 19, 20, 6, 7, 8, 9, 10, 11, 12, 13, 14, 15, 24, 0, 1, 2, 3, 4, 5, 6, 7, 8, 19, 20, 21, 22, 23, 24, 0, 1, 2, 3, 12, 13, 14, 15, 16, 17, 18, 19, 20, 21, 3, 4, 5, 6, 7, 8, 9, 10, 11, 13, 14, 15, 16, 17, 18, 19, 20, 21, 1, 2, 3, 4, 5, 6, 7, 8, 9, 17, 18, 19, 20, 21, 22, 23, 24, 0, 1, 11, 12, 13, 14, 15, 16, 17, 18, 19, 20, 5, 6, 7, 8, 9, 10, 11, 12, 13, 14, 24, 0, 1, 2, 3, 4, 5, 6, 7, 8, 18, 19, 20, 21, 22, 23, 24, 0, 1, 2, 12, 13, 14, 15, 16, 17, 18, 19, 20, 21, 6, 7, 8, 9, 10, 11, 12, 13, 14, 15])
  (bM := [15, 16, 17, 18, 19, 20, 21, 22, 23, 24, 11, 12, 13, 14, 15, 16, 17, 18, 19, 20, 5, 6, 7, 8, 9, 10, 11, 12, 13, 14, 1, 2, 3, 4, 5, 6, 7, 8, 9, 10, 44, 45, 46, 47, 48, 0, 1, 2, 3, 4, 40, 41, 42, 43, 44, 45, 46, 47, 48, 0, 34, 35, 36, 37, 38, 39, 40, 41, 42, 43, 30, 31, 32, 33, 34, 35, 36, 37, 38, 39, 24, 25, 26, 27, 28, 29, 30, 31, 32, 33, 16, 17, 18, 19, 20, 21, 22, 23, 24, 2, 3, 4, 5, 6, 7, 8, 9, 10, 40, 41, 42, 43, 44, 45, 46, 47, 48, 32, 33, 34, 35, 36, 37, 38, 39, 40, 41, 27, 28, 29, 30, 31, 32, 33, 34, 35, 36, 22, 23, 24, 25, 26, 27, 28, 29, 30, 31, 17, 18, 19, 20, 21, 22, 23, 24, 25, 26, 12, 13, 14, 15, 16, 17, 18, 19, 20, 21, 7, 8, 9, 10, 11, 12, 13, 14, 15, 16, 2, 3, 4, 5, 6, 7, 8, 9, 10, 11])
  (bQ := [57, 58, 59, 60, 61, 62, 63, 64, 65, 66, 34, 35, 36, 37, 38, 39, 40, 41, 42, 43, 9, 10, 11, 12, 13, 14, 15, 16, 17, 18, 54, 55, 56, 57, 58, 59, 60, 61, 62, 63, 63, 64, 65, 66, 67, 0, 1, 2, 3, 4, 40, 41, 42, 43, 44, 45, 46, 47, 48, 49, 15, 16, 17, 18, 19, 20, 21, 22, 23, 24, 60, 61, 62, 63, 64, 65, 66, 67, 0, 1, 35, 36, 37, 38, 39, 40, 41, 42, 43, 44, 8, 9, 10, 11, 12, 13, 14, 15, 16, 43, 44, 45, 46, 47, 48, 49, 50, 51, 13, 14, 15, 16, 17, 18, 19, 20, 21, 54, 55, 56, 57, 58, 59, 60, 61, 62, 63, 30, 31, 32, 33, 34, 35, 36, 37, 38, 39, 6, 7, 8, 9, 10, 11, 12, 13, 14, 15, 50, 51, 52, 53, 54, 55, 56, 57, 58, 59, 26, 27, 28, 29, 30, 31, 32, 33, 34, 35, 2, 3, 4, 5, 6, 7, 8, 9, 10, 11, 46, 47, 48, 49, 50, 51, 52, 53, 54, 55])
  (bH := [47, 48, 49, 50, 51, 52, 53, 54, 55, 56, 11, 12, 13, 14, 15, 16, 17, 18, 19, 20, 54, 55, 56, 57, 58, 59, 60, 61, 62, 63, 18, 19, 20, 21, 22, 23, 24, 25, 26, 27, 61, 62, 63, 64, 65, 66, 67, 68, 69, 70, 25, 26, 27, 28, 29, 30, 31, 32, 33, 34, 68, 69, 70, 71, 72, 73, 74, 75, 76, 77, 32, 33, 34, 35, 36, 37, 38, 39, 40, 41, 75, 76, 77, 78, 79, 80, 0, 1, 2, 3, 35, 36, 37, 38, 39, 40, 41, 42, 43, 70, 71, 72, 73, 74, 75, 76, 77, 78, 27, 28, 29, 30, 31, 32, 33, 34, 35, 68, 69, 70, 71, 72, 73, 74, 75, 76, 77, 31, 32, 33, 34, 35, 36, 37, 38, 39, 40, 75, 76, 77, 78, 79, 80, 0, 1, 2, 3, 38, 39, 40, 41, 42, 43, 44, 45, 46, 47, 1, 2, 3, 4, 5, 6, 7, 8, 9, 10, 45, 46, 47, 48, 49, 50, 51, 52, 53, 54, 8, 9, 10, 11, 12, 13, 14, 15, 16, 17])
  (by decide +kernel)

theorem logo_all {v : Nat} (h1 : 1 ≤ v) (h40 : v ≤ 40) : LogoOk v := by
  have h : v ∈ (List.range 40).map (· + 1) := List.mem_map.2 ⟨v - 1, by rw [List.mem_range]; omega, by omega⟩
  revert h
  rw [show (List.range 40).map (· + 1) = [1, 2, 3, 4, 5, 6, 7, 8, 9, 10, 11, 12, 13, 14, 15, 16, 17, 18, 19, 20, 21, 22, 23, 24, 25, 26, 27, 28, 29, 30, 31, 32, 33, 34, 35, 36, 37, 38, 39, 40] by decide]
  intro h
  simp only [List.mem_cons, List.not_mem_nil, or_false] at h
  rcases h with rfl | rfl | rfl | rfl | rfl | rfl | rfl | rfl | rfl | rfl | rfl | rfl | rfl | rfl | rfl | rfl | rfl | rfl | rfl | rfl | rfl | rfl | rfl | rfl | rfl | rfl | rfl | rfl | rfl | rfl | rfl | rfl | rfl | rfl | rfl | rfl | rfl | rfl | rfl | rfl
  · exact logo_1
  · exact logo_2
  · exact logo_3
  · exact logo_4
  · exact logo_5
  · exact logo_6
  · exact logo_7
  · exact logo_8
  · exact logo_9
  · exact logo_10
  · exact logo_11
  · exact logo_12
  · exact logo_13
  · exact logo_14
  · exact logo_15
  · exact logo_16
  · exact logo_17
  · exact logo_18
  · exact logo_19
  · exact logo_20
  · exact logo_21
  · exact logo_22
  · exact logo_23
  · exact logo_24
  · exact logo_25
  · exact logo_26
  · exact logo_27
  · exact logo_28
  · exact logo_29
  · exact logo_30
  · exact logo_31
  · exact logo_32
  · exact logo_33
  · exact logo_34
  · exact logo_35
  · exact logo_36
  · exact logo_37
  · exact logo_38
  · exact logo_39
  · exact logo_40

end QR
