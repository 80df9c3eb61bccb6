import Verif.Rows.Chunk01
import Verif.Rows.Chunk02
import Verif.Rows.Chunk03
import Verif.Rows.Chunk04
import Verif.Rows.Chunk05
import Verif.Rows.Chunk06
import Verif.Rows.Chunk07
import Verif.Rows.Chunk08
import Verif.Rows.Chunk09
import Verif.Rows.Chunk10
import Verif.Rows.Chunk11
import Verif.Rows.Chunk12
import Verif.Rows.Chunk13
import Verif.Rows.Chunk14
import Verif.Rows.Chunk15
import Verif.Rows.Chunk16

/-! Generated by tools/gen_rows.py; checked by the kernel. -/

namespace Verif

/-- All rows: the full table in its order, then the symbols that occur only in the default table. -/
def allRows : List Row :=
  rows01 ++ rows02 ++ rows03 ++ rows04 ++ rows05 ++ rows06 ++ rows07 ++ rows08 ++ rows09 ++ rows10 ++ rows11 ++ rows12 ++ rows13 ++ rows14 ++ rows15 ++ rows16

theorem allRows_ok : allRows.all (rowCheck functionals) = true := by
  unfold allRows
  simp only [List.all_append, Bool.and_eq_true]
  exact ⟨⟨⟨⟨⟨⟨⟨⟨⟨⟨⟨⟨⟨⟨⟨rows01_ok, rows02_ok⟩, rows03_ok⟩, rows04_ok⟩, rows05_ok⟩, rows06_ok⟩, rows07_ok⟩, rows08_ok⟩, rows09_ok⟩, rows10_ok⟩, rows11_ok⟩, rows12_ok⟩, rows13_ok⟩, rows14_ok⟩, rows15_ok⟩, rows16_ok⟩

/-- The position in `allRows` of each row of the default table. -/
def defaultIndices : List Nat := [
  0, 1, 2, 5, 8, 17, 20, 29, 38, 56, 59, 62, 71, 80, 89, 107, 108, 111, 114, 115, 118, 121, 122, 530, 124, 127, 133, 136, 142, 148, 154, 160, 163, 169, 172, 175, 181, 184, 190, 196, 202, 208, 211, 214, 217, 220, 226, 228, 229, 233, 238, 244, 250, 256, 262, 265, 268, 274, 278, 283, 289, 291, 297, 303, 309, 312, 531, 532, 333, 335, 336, 337, 340, 342, 348, 533, 350, 534, 352, 535, 354, 355, 356, 357, 359, 361, 362, 364, 365, 366, 536, 537, 369, 370, 538, 539, 373, 540, 375, 376, 377, 378, 379, 380, 381, 382, 383, 541, 542, 543, 387, 388, 389, 390, 391, 392, 393, 394, 395, 396, 397, 398, 399, 400, 402, 404, 405, 406, 408, 410, 411, 412, 414, 416, 417, 418, 420, 422, 423, 424, 426, 428, 429, 430, 431, 432, 434, 435, 437, 438, 439, 440, 441, 442, 443, 445, 446, 447, 448, 449, 451, 453, 454, 455, 456, 457, 459, 461, 462, 463, 464, 465, 466, 467, 468, 469, 470, 471, 472, 473, 474, 475, 476, 477, 478, 479, 480, 481, 482, 483, 484, 485, 486, 487, 488, 489, 490, 491, 492, 493, 495, 496, 498, 499, 500, 501, 502, 503, 504, 505, 506, 507, 508, 509, 510, 511, 512, 513, 514, 515, 516, 518, 519, 521, 522, 523, 525, 544, 528, 529]

end Verif
